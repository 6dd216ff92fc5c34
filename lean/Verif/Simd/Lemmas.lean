import Verif.Simd.Model
import Verif.Tac

/-!
# Saving and restoring a context
-/

namespace Verif.Simd

@[simp] theorem need_eq_some {b : Bool} {u : Unit} : need b = some u ↔ b = true := by
  unfold need; cases b <;> simp

@[simp] theorem need_true : need true = some () := rfl

/-- The context uses the registers of streaming mode. -/
def str (c : Ctx) (h : Hw) : Bool := c.sme && h.sm

/-- How much of the vectors a context has. -/
def len (P : Plat) (c : Ctx) (h : Hw) : Nat :=
  if str c h then P.svl h.smcr2.toNat else if c.sve then P.vl (c.zcr2.toNat % 16) else 0

/-- Something the context is promised to keep: it is kept, or cleared because of the hint. -/
def Kept1 {n : Nat} (c : Ctx) (h0 : Hw) (old new : BitVec n) : Prop :=
  new = old ∨ (c.hint = true ∧ c.sve = true ∧ str c h0 = false ∧ new = 0)

/-- The registers a context owns are the same. -/
structure Same (P : Plat) (c : Ctx) (h0 h : Hw) : Prop where
  sme : c.sme = true → h.sm = h0.sm ∧ h.za = h0.za ∧ h.zaMem = h0.zaMem
  fpsr : h.fpsr = h0.fpsr
  fpcr : h.fpcr = h0.fpcr
  zcr1 : c.sve = true → h.zcr1 = h0.zcr1
  z0 : ∀ n < 32, h.z n 0 = h0.z n 0
  z : ∀ n < 32, ∀ j ≤ len P c h0, Kept1 c h0 (h0.z n j) (h.z n j)
  p : str c h0 = true ∨ c.sve = true → ∀ n < 16, ∀ j ≤ len P c h0, Kept1 c h0 (h0.p n j) (h.p n j)
  ffr : (str c h0 = true ∧ fa64 h0 = true) ∨ (str c h0 = false ∧ c.sve = true) →
    ∀ j ≤ len P c h0, Kept1 c h0 (h0.ffr j) (h.ffr j)

/-- The context in memory holds the registers. -/
structure Image (P : Plat) (c : Ctx) (h0 : Hw) : Prop where
  sme : c.sme = true → c.sm = h0.sm ∧ c.za = h0.za
  fpsr : c.fpsr = h0.fpsr
  fpcr : c.fpcr = h0.fpcr
  zcr1 : c.sve = true → c.zcr1 = h0.zcr1
  full : (str c h0 = true ∨ (c.sve = true ∧ c.hint = false)) →
    (∀ n < 32, ∀ j ≤ len P c h0, c.zm (n * (len P c h0 + 1) + j) = h0.z n j) ∧
    (∀ n < 16, ∀ j ≤ len P c h0, c.pm (n * (len P c h0 + 1) + j) = h0.p n j) ∧
    ((str c h0 = false ∨ fa64 h0 = true) → ∀ j ≤ len P c h0, c.fm j = h0.ffr j)
  q : ¬ (str c h0 = true ∨ (c.sve = true ∧ c.hint = false)) → ∀ n < 32, c.zm n = h0.z n 0

/-- The parts of a context that saving leaves alone. -/
structure SameCfg (c c' : Ctx) : Prop where
  ns : c'.ns = c.ns
  sve : c'.sve = c.sve
  sme : c'.sme = c.sme
  init : c'.init = c.init
  hint : c'.hint = c.hint
  cptr : c'.cptr = c.cptr
  zcr2 : c'.zcr2 = c.zcr2

theorem SameCfg.refl (c : Ctx) : SameCfg c c := ⟨rfl, rfl, rfl, rfl, rfl, rfl, rfl⟩

theorem SameCfg.trans {a b c : Ctx} (h : SameCfg a b) (k : SameCfg b c) : SameCfg a c :=
  ⟨k.ns.trans h.ns, k.sve.trans h.sve, k.sme.trans h.sme, k.init.trans h.init, k.hint.trans h.hint,
    k.cptr.trans h.cptr, k.zcr2.trans h.zcr2⟩

/-- The trap controls of a context let it be saved. -/
structure Allows (P : Plat) (c : Ctx) : Prop where
  fp : fpen c.cptr = true
  z : c.sve = true → zen c.cptr = true ∧ P.sve = true
  s : c.sme = true → smen c.cptr = true ∧ P.sme = true

theorem row {v n j : Nat} (hj : j ≤ v) : (n * (v + 1) + j) / (v + 1) = n ∧ (n * (v + 1) + j) % (v + 1) = j := by
  have h1 : j < v + 1 := by omega
  constructor
  · rw [Nat.add_comm, Nat.add_mul_div_right _ _ (by omega), Nat.div_eq_of_lt h1]; omega
  · rw [Nat.add_comm, Nat.add_mul_mod_self_right, Nat.mod_eq_of_lt h1]

theorem row_lt {v n j m : Nat} (hj : j ≤ v) (hn : n < m) : n * (v + 1) + j < m * (v + 1) := by
  have : (n + 1) * (v + 1) ≤ m * (v + 1) := Nat.mul_le_mul_right _ hn
  rw [Nat.add_mul] at this
  omega

/-- The stored registers of a full save. -/
theorem saved_z {v n j m : Nat} (hj : j ≤ v) (hn : n < m) {k : Nat} {f : Nat → Nat → BitVec k} {old : Nat → BitVec k} :
    (if n * (v + 1) + j < m * (v + 1) then f ((n * (v + 1) + j) / (v + 1)) ((n * (v + 1) + j) % (v + 1))
      else old (n * (v + 1) + j)) = f n j := by
  rw [if_pos (row_lt hj hn), (row hj).1, (row hj).2]

theorem saved_z' {v n j m : Nat} (hj : j ≤ v) (hn : n < m) {k : Nat} {f : Nat → Nat → BitVec k} {old : Nat → BitVec k} :
    (if n * (v + 1) + j < m * (v + 1) then f ((n * (v + 1) + j) / (v + 1)) (j % (v + 1))
      else old (n * (v + 1) + j)) = f n j := by
  rw [if_pos (row_lt hj hn), (row hj).1, Nat.mod_eq_of_lt (by omega)]

/-- Saving a context. -/
theorem saveCtx_spec {P : Plat} {h : Hw} {c : Ctx} (ha : Allows P c) (hc : h.cptr = c.cptr)
    (hs : c.sme = false → h.sm = false) :
    ∃ h' c', saveCtx P h c = some (h', c') ∧ SameCfg c c' ∧ c'.saved = c.saved ∧ c'.nsZcr2 = c.nsZcr2 ∧
      Image P c' h ∧ h'.sm = false ∧ h'.za = h.za ∧ h'.zaMem = h.zaMem ∧ h'.smcr2 = h.smcr2 ∧ h'.cptr = h.cptr := by
  obtain ⟨a1, a2, a3⟩ := ha
  obtain ⟨z, p, ffr, fpsr, fpcr, zcr1, zcr2, smcr2, sm, za, zaMem, cptr⟩ := h
  obtain ⟨ns, sve, sme, init, saved, hint, cptr', sm', za', zcr2', nsZcr2, zcr1', fpsr', fpcr', zm, pm, fm⟩ := c
  simp only at hc hs a1 a2 a3
  subst hc
  cases sve <;> cases sme <;> cases hint <;> cases sm <;> simp at hs a1 a2 a3 <;>
  (simp only [saveCtx, setZcr2, a1, a2, a3, need_true, Option.bind_eq_bind, Option.bind_some, saveRegs, normal, streaming, fpuSave,
      sveSave, sveOk, ffrOk, vq, Bool.not_true, Bool.not_false, Bool.or_true, Bool.true_or, Bool.or_false, Bool.false_or,
      Bool.and_true, Bool.true_and, Bool.and_false, Bool.false_and, if_true, if_false, Bool.false_eq_true,
      Option.map_some, writeSvcr, beq_self_eq_true, fa64]
   cases hfa : smcr2.getLsbD 31
   all_goals try simp only [Option.bind_some, need_true, Bool.not_true, Bool.not_false, Bool.or_true, Bool.true_or,
     if_true, if_false, Bool.false_eq_true, Bool.and_true, beq_self_eq_true, show (true == false) = false from rfl]
   all_goals refine ⟨_, _, rfl, ⟨rfl, rfl, rfl, rfl, rfl, rfl, rfl⟩, rfl, rfl, ?_, rfl, rfl, rfl, rfl, rfl⟩
   all_goals constructor
   all_goals simp +contextual [str, len, fa64, saved_z'] at *
   all_goals simp_all)

/-- Restoring a context. -/
theorem restoreCtx_spec {P : Plat} {h h0 : Hw} {c : Ctx} (ha : Allows P c) (hc : h.cptr = c.cptr)
    (hm : h.sm = false) (hi : Image P c h0) (h1 : h.smcr2 = h0.smcr2)
    (h2 : c.sme = true → h.za = h0.za ∧ h.zaMem = h0.zaMem) :
    ∃ h', restoreCtx P h c = some h' ∧ Same P c h0 h' ∧ h'.cptr = h.cptr ∧ h'.smcr2 = h.smcr2 ∧
      (c.sme = false → h'.sm = false) ∧ h'.za = h.za ∧ h'.zaMem = h.zaMem ∧
      h'.zcr2 = if c.sve then c.zcr2 else h.zcr2 := by
  obtain ⟨a1, a2, a3⟩ := ha
  obtain ⟨z, p, ffr, fpsr, fpcr, zcr1, zcr2, smcr2, sm, za, zaMem, cptr⟩ := h
  obtain ⟨ns, sve, sme, init, saved, hint, cptr', sm', za', zcr2', nsZcr2, zcr1', fpsr', fpcr', zm, pm, fm⟩ := c
  obtain ⟨z0, p0, ffr0, fpsr0, fpcr0, zcr10, zcr20, smcr20, sm0, za0, zaMem0, cptr0⟩ := h0
  obtain ⟨i1, i2, i3, i4, i5, i6⟩ := hi
  simp only at hc hm a1 a2 a3 h1 h2 i1 i2 i3 i4
  subst hc hm h1 i2 i3
  cases sve <;> cases sme <;> cases hint <;> cases sm0 <;>
  (simp [str, len, fa64] at a1 a2 a3 h2 i1 i4 i5 i6
   obtain ⟨rfl, rfl⟩ := h2
   obtain ⟨rfl, rfl⟩ := i1
   simp only [restoreCtx, setZcr2, a1, a2, a3, need_true, Option.bind_eq_bind, Option.bind_some, restoreRegs, normal, streaming,
      fpuRestore, clearPFfr, sveRestore, sveOk, ffrOk, vq, Bool.not_true, Bool.not_false, Bool.or_true, Bool.true_or, Bool.or_false,
      Bool.false_or, Bool.and_true, Bool.true_and, Bool.and_false, Bool.false_and, if_true, if_false, Bool.false_eq_true,
      writeSvcr, beq_self_eq_true, fa64, show (false == true) = false from rfl]
   cases hfa : smcr2.getLsbD 31
   all_goals try simp only [Option.bind_some, need_true, Bool.not_true, Bool.not_false, Bool.or_true, Bool.true_or,
     if_true, if_false, Bool.false_eq_true, Bool.and_true, beq_self_eq_true]
   all_goals refine ⟨_, rfl, ?_, rfl, rfl, by simp, rfl, rfl, rfl⟩
   all_goals constructor
   all_goals simp +contextual [str, len, fa64, Kept1] at *
   all_goals try simp_all
   all_goals first | (intro n hn; exact i5.1 n hn 0 (Nat.zero_le _)) | (intro n hn j hj; by_cases hj0 : j = 0 <;> simp_all))

end Verif.Simd
