import Verif.Switch.Model

namespace Verif.Switch

theorem upd_same {α β : Type} [DecidableEq α] (f : α → β) (a : α) (v : β) : upd f a v a = v := by simp [upd]

theorem upd_other {α β : Type} [DecidableEq α] (f : α → β) {a b : α} (v : β) (h : b ≠ a) : upd f a v b = f b := by
  simp [upd, h]

/-- Copying entry by entry. -/
theorem foldl_upd {α β : Type} [DecidableEq α] (g : α → β) (l : List α) (f : α → β) (a : α) :
    (l.foldl (fun f n => upd f n (g n)) f) a = if a ∈ l then g a else f a := by
  induction l generalizing f with
  | nil => simp
  | cons n l ih =>
    rw [List.foldl_cons, ih]
    by_cases h : a ∈ l
    · simp [h]
    · by_cases hn : a = n
      · subst hn; simp [h, upd]
      · simp [h, hn, upd]

/-! ## System registers -/

theorem saveSys_apply (e : Env) (h : Hw) (ctx : Sys → W) (r : Sys) :
    saveSys e h ctx r = if r ∈ saveList then
      (if present e r then read h r else if r = .sctlr2_1 then 0 else ctx r) else ctx r := by
  unfold saveSys
  generalize saveList = l
  induction l generalizing ctx with
  | nil => simp
  | cons n l ih =>
    rw [List.foldl_cons, ih]
    by_cases hl : r ∈ l
    · simp only [hl, List.mem_cons, or_true, if_true]
      by_cases hn : r = n
      · subst hn
        by_cases hp : present e r
        · simp [hp]
        · by_cases hs : r = .sctlr2_1 <;> simp [hp, hs]
      · split
        · rfl
        · split
          · rfl
          · split
            · simp [upd, hn]
            · split
              · simp [upd, hn]
              · rfl
    · simp only [hl, List.mem_cons, or_false, if_false]
      by_cases hn : r = n
      · subst hn
        by_cases hp : present e r
        · simp [hp, upd]
        · by_cases hs : r = .sctlr2_1
          · subst hs; simp [hp, upd]
          · simp [hp, hs]
      · simp only [hn, if_false]
        split
        · simp [upd, hn]
        · split
          · simp [upd, hn]
          · rfl

theorem write_plain (h : Hw) {r : Sys} (hr : r ≠ .pmcr) (v : W) : write h r v = { h with sys := upd h.sys r v } := by
  cases r <;> first | rfl | exact absurd rfl hr

theorem read_plain (h : Hw) {r : Sys} (hr : r ≠ .pmcr) : read h r = h.sys r := by
  cases r <;> first | rfl | exact absurd rfl hr

def wr (e : Env) (ctx : Sys → W) (h : Hw) (r : Sys) : Hw := if present e r then write h r (ctx r) else h

theorem foldl_wr (e : Env) (ctx : Sys → W) (l : List Sys) (hn : Sys.pmcr ∉ l) (h : Hw) :
    l.foldl (wr e ctx) h = { h with sys := fun r => if r ∈ l ∧ present e r then ctx r else h.sys r } := by
  induction l generalizing h with
  | nil => simp
  | cons n l ih =>
    have hn1 : n ≠ .pmcr := fun e => hn (by simp [e])
    have hn2 : Sys.pmcr ∉ l := fun e => hn (by simp [e])
    rw [List.foldl_cons, ih hn2, wr]
    by_cases hp : present e n
    · rw [if_pos hp, write_plain _ hn1]
      simp only [Hw.mk.injEq, and_true]
      funext r
      simp only [upd, List.mem_cons]
      by_cases hr : r = n
      · subst hr; simp [hp]
      · simp [hr]
    · rw [if_neg hp]
      simp only [Hw.mk.injEq, and_true]
      funext r
      simp only [List.mem_cons]
      by_cases hr : r = n
      · subst hr; simp [hp]
      · simp [hr]

theorem foldl_wr_pmcr (e : Env) (ctx : Sys → W) (l k : List Sys) (hl : Sys.pmcr ∉ l) (hk : Sys.pmcr ∉ k) (h : Hw) :
    (l ++ .pmcr :: k).foldl (wr e ctx) h = { h with
      sys := fun r => if r ∈ l ++ .pmcr :: k ∧ r ≠ .pmcr ∧ present e r then ctx r else h.sys r
      pmu := writePmcr h.pmu (ctx .pmcr) } := by
  rw [List.foldl_append, List.foldl_cons, foldl_wr e ctx l hl, foldl_wr e ctx k hk]
  have hp : present e .pmcr = true := rfl
  simp only [wr, hp, if_true, write, Hw.mk.injEq, and_true]
  funext r
  by_cases h1 : r ∈ k
  · have h3 : r ≠ .pmcr := fun x => hk (x ▸ h1)
    by_cases hp : present e r <;> simp [h1, h3, hp]
  · by_cases h2 : r ∈ l
    · have h3 : r ≠ .pmcr := fun x => hl (x ▸ h2)
      by_cases hp : present e r <;> simp [h1, h2, h3, hp]
    · by_cases h3 : r = .pmcr
      · simp [h3, hk, hl]
      · simp [h1, h2, h3]

theorem restoreSys_eq (e : Env) (ctx : Sys → W) (h : Hw) : restoreSys e ctx h = { h with
    sys := fun r => if r ∈ restoreList ∧ r ≠ .pmcr ∧ present e r then ctx r else h.sys r
    pmu := writePmcr h.pmu (ctx .pmcr) } :=
  foldl_wr_pmcr e ctx (restoreList.take 4) (restoreList.drop 5) (by decide) (by decide) h

/-! ## PMU -/

theorem mem_falls {top m n : Nat} (h : m ≤ top) : n ∈ falls top m ↔ n ≤ m := by
  simp [falls, h]; omega

theorem mem_ctrs {num n : Nat} (h : num ≤ 31) : n ∈ ctrs num ↔ n < num := by
  unfold ctrs
  split
  · rw [mem_falls (by omega)]; omega
  · simp; omega

theorem pmuSave_fold (p : Pmu) (l : List Nat) (s : PmuS) :
    l.foldl (fun s n => { s with evcntr := upd s.evcntr n (p.cntr n), evtyper := upd s.evtyper n (p.typer n) }) s =
    { s with evcntr := fun n => if n ∈ l then p.cntr n else s.evcntr n
             evtyper := fun n => if n ∈ l then p.typer n else s.evtyper n } := by
  induction l generalizing s with
  | nil => simp
  | cons a l ih =>
    rw [List.foldl_cons, ih]
    simp only [PmuS.mk.injEq, true_and]
    constructor <;> funext n <;> simp only [List.mem_cons, upd] <;> by_cases h1 : n = a <;> by_cases h2 : n ∈ l <;>
      simp [h1, h2]
    all_goals (subst h1; simp [h2])

theorem pmuRestore_fold (s : PmuS) (l : List Nat) (p : Pmu) :
    l.foldl (fun p n => { p with cntr := upd p.cntr n (s.evcntr n), typer := upd p.typer n (s.evtyper n) }) p =
    { p with cntr := fun n => if n ∈ l then s.evcntr n else p.cntr n
             typer := fun n => if n ∈ l then s.evtyper n else p.typer n } := by
  induction l generalizing p with
  | nil => simp
  | cons a l ih =>
    rw [List.foldl_cons, ih]
    simp only [Pmu.mk.injEq, true_and]
    constructor <;> funext n <;> simp only [List.mem_cons, upd] <;> by_cases h1 : n = a <;> by_cases h2 : n ∈ l <;>
      simp [h1, h2]
    all_goals (subst h1; simp [h2])

/-- Set what was set, then clear the rest: the register gets the saved value. -/
theorem set_clr {e : Env} {r v : W} (hi : e.imp &&& ~~~CLEAR_ALL = 0) (hr : r &&& ~~~e.imp = 0)
    (hv : v &&& ~~~e.imp = 0) : clrBits (setBits e r v) (v ^^^ CLEAR_ALL) = v := by
  apply BitVec.eq_of_getLsbD_eq
  intro i hi64
  have z : (0 : W).getLsbD i = false := by simp
  have a := congrArg (fun w : W => w.getLsbD i) hi
  have b := congrArg (fun w : W => w.getLsbD i) hr
  have c := congrArg (fun w : W => w.getLsbD i) hv
  simp only [BitVec.getLsbD_and, BitVec.getLsbD_not, z, hi64, decide_true, Bool.true_and] at a b c
  simp only [clrBits, setBits, BitVec.getLsbD_and, BitVec.getLsbD_or, BitVec.getLsbD_not, BitVec.getLsbD_xor, hi64,
    decide_true, Bool.true_and]
  generalize e.imp.getLsbD i = x at *
  generalize CLEAR_ALL.getLsbD i = y at *
  generalize r.getLsbD i = z at *
  generalize v.getLsbD i = w at *
  revert a b c
  cases x <;> cases y <;> cases z <;> cases w <;> decide

def selS (s : PmuS) : Nat := (s.selr &&& 0x1F).toNat

/-- `pmu_restore_state` in closed form. -/
theorem pmuRestore_eq (e : Env) (s : PmuS) (p : Pmu) (num : Nat) : pmuRestore e s p num =
    { pmcr := p.pmcr, ccntr := s.ccntr
      ccfiltr := if selS s < e.nctr then s.ccfiltr else if selS s = 31 then s.xevtyper else s.ccfiltr
      cnten := clrBits (setBits e p.cnten s.cntenset) (s.cntenclr ^^^ CLEAR_ALL)
      inten := clrBits (setBits e p.inten s.intenset) (s.intenclr ^^^ CLEAR_ALL)
      ovs := clrBits (setBits e p.ovs s.ovsset) (s.ovsclr ^^^ CLEAR_ALL)
      selr := s.selr, userenr := s.userenr
      cntr := fun n => if n ∈ ctrs num then s.evcntr n else if n = selS s ∧ n < e.nctr then s.xevcntr else p.cntr n
      typer := fun n => if n ∈ ctrs num then s.evtyper n
        else if n = selS s ∧ n < e.nctr then s.xevtyper else p.typer n } := by
  unfold pmuRestore
  simp only [pmuRestore_fold]
  by_cases h : selS s < e.nctr
  · have h' : (s.selr &&& 0x1F).toNat < e.nctr := h
    simp only [writeXcntr, writeXtyper, sel, h', h, if_true, Pmu.mk.injEq, true_and]
    constructor <;> funext n <;> by_cases h1 : n ∈ ctrs num <;> simp only [h1, if_true, if_false, upd]
    all_goals
      by_cases h2 : n = selS s
      · have h3 : n = (s.selr &&& 0x1F).toNat := h2
        rw [if_pos h3, if_pos ⟨h2, by omega⟩]
      · have h3 : ¬n = (s.selr &&& 0x1F).toNat := h2
        rw [if_neg h3, if_neg (fun x => h2 x.1)]
  · have h' : ¬(s.selr &&& 0x1F).toNat < e.nctr := h
    have hx : ∀ n, ¬(n = selS s ∧ n < e.nctr) := fun n x => h (x.1 ▸ x.2)
    by_cases h31 : selS s = 31
    · have h31' : (s.selr &&& 0x1F).toNat = 31 := h31
      have hn : ¬31 < e.nctr := by rw [← h31]; exact h
      simp only [writeXcntr, writeXtyper, sel, h31', h31, hn, if_true, if_false, Pmu.mk.injEq, true_and]
      constructor <;> funext n <;> have := hx n <;> rw [h31] at this <;> simp only [this, if_false]
    · have h31' : ¬(s.selr &&& 0x1F).toNat = 31 := h31
      simp only [writeXcntr, writeXtyper, sel, h', h31', h, h31, if_false, hx]

/-- `pmu_save_state` in closed form. -/
theorem pmuSave_eq (e : Env) (p : Pmu) (s : PmuS) (num : Nat) : pmuSave e p s num =
    { ccfiltr := p.ccfiltr
      ccntr := p.ccntr
      cntenset := p.cnten
      cntenclr := p.cnten
      intenset := p.inten
      intenclr := p.inten
      ovsset := p.ovs
      ovsclr := p.ovs
      selr := p.selr
      userenr := p.userenr
      xevcntr := readXcntr e p
      xevtyper := readXtyper e p
      evcntr := fun n => if n ∈ ctrs num then p.cntr n else s.evcntr n
      evtyper := fun n => if n ∈ ctrs num then p.typer n else s.evtyper n } := by
  simp only [pmuSave, pmuSave_fold]

/-! ## GIC -/

theorem apr_save_fold (h : Gic) (l : List Nat) (s : Gic) :
    l.foldl (fun s n => { s with ap0r := upd s.ap0r n (h.ap0r n), ap1r := upd s.ap1r n (h.ap1r n) }) s =
    { s with ap0r := fun n => if n ∈ l then h.ap0r n else s.ap0r n
             ap1r := fun n => if n ∈ l then h.ap1r n else s.ap1r n } := by
  induction l generalizing s with
  | nil => simp
  | cons a l ih =>
    rw [List.foldl_cons, ih]
    simp only [Gic.mk.injEq, true_and, and_true]
    constructor <;> funext n <;> simp only [List.mem_cons, upd] <;> by_cases h1 : n = a <;> by_cases h2 : n ∈ l <;>
      simp [h1, h2]
    all_goals (subst h1; simp [h2])

theorem lr_save_fold (h : Gic) (l : List Nat) (s : Gic) :
    l.foldl (fun s n => { s with lr := upd s.lr n (h.lr n) }) s =
    { s with lr := fun n => if n ∈ l then h.lr n else s.lr n } := by
  induction l generalizing s with
  | nil => simp
  | cons a l ih =>
    rw [List.foldl_cons, ih]
    simp only [Gic.mk.injEq, and_true]
    funext n
    simp only [List.mem_cons, upd]
    by_cases h1 : n = a <;> by_cases h2 : n ∈ l <;> simp [h1, h2]
    all_goals (subst h1; simp [h2])

theorem gicSave_eq (e : Env) (h s : Gic) : gicSave e h s =
    ({ lr := fun n => if n ∈ falls 15 e.nrLrs then h.lr n else s.lr n
       ap0r := fun n => if n ∈ falls 3 e.nrAprs then h.ap0r n else s.ap0r n
       ap1r := fun n => if n ∈ falls 3 e.nrAprs then h.ap1r n else s.ap1r n
       vmcr := h.vmcr
       hcr := h.hcr
       misr := h.misr }, { h with hcr := h.hcr &&& ~~~ICH_EN }) := by
  simp only [gicSave, apr_save_fold, lr_save_fold]

theorem gicRestore_eq (e : Env) (s h : Gic) : gicRestore e s h =
    { lr := fun n => if n ∈ falls 15 e.nrLrs then s.lr n else h.lr n
      ap0r := fun n => if n ∈ falls 3 e.nrAprs then s.ap0r n else h.ap0r n
      ap1r := fun n => if n ∈ falls 3 e.nrAprs then s.ap1r n else h.ap1r n
      vmcr := s.vmcr
      hcr := s.hcr
      misr := h.misr } := by
  simp only [gicRestore, apr_save_fold, lr_save_fold]

end Verif.Switch
