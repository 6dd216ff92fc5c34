import Verif.Life.Ov

/-!
# Single operations in a memory with overlays
-/

namespace Verif.Life

open Rmm
open Atom (isWalk foot)

/-- The changes of commands under way lie on granules that are delegated, on realm descriptors
and on VMIDs that are free. -/
structure Sep (T : Ov) (s : State) : Prop where
  g : ∀ {a e x}, T.g a = some (e, x) → s.st a = .delegated ∧ (e = .recAux ∨ e = .rtt ∨ e = .rd ∨ e = .recd)
  rc : ∀ {a}, T.rc a ≠ 0 → s.st a = .rd
  vm : ∀ {v}, T.vm v = true → s.vmid v = false
  cap : ∀ {a}, s.st a = .rd → s.rc a + T.rc a ≤ 1023

/-- The four commands that create and destroy. -/
def isLife : Op → Bool
  | .realmCreate .. | .realmDestroy .. | .recCreate .. | .recDestroy .. => true
  | _ => false

section
variable {P : Plat} {T : Ov} {s : State} {ti : Nat → TabInfo} {di : Nat → Nat × Nat} {rl : Nat → List Nat}

theorem Sep.none (S : Sep T s) {a : Nat} (h : s.st a ≠ .delegated) : T.g a = none := by
  cases hg : T.g a with
  | none => rfl
  | some x => exact absurd (S.g hg).1 h

theorem Sep.rc0 (S : Sep T s) {a : Nat} (h : s.st a ≠ .rd) : T.rc a = 0 := by
  by_contra hc; exact h (S.rc hc)

theorem Sep.stNs (S : Sep T s) (a : Nat) : (ov T s).st a = .ns ↔ s.st a = .ns := by
  cases hg : T.g a with
  | none => simp [ov, ovSt_none _ hg]
  | some x =>
    obtain ⟨e, c⟩ := x
    obtain ⟨h1, h2⟩ := S.g hg
    simp only [ov, ovSt, hg, h1]
    rcases h2 with rfl | rfl | rfl | rfl <;> simp

theorem Sep.lkNs (S : Sep T s) (a : Nat) : lk P (ov T s) a .ns = lk P s a .ns := by
  unfold lk; congr 1; exact decide_eq_decide.mpr (S.stNs a)

/-- A granule that no command under way has locked, seen as a realm descriptor or a REC. -/
theorem Sep.stFree (S : Sep T s) {a : Nat} {e : GSt} (he : e = .rd ∨ e = .recd)
    (hf : ∀ {e c}, T.g a = some (e, c) → e = .recAux ∨ e = .rtt) : (ov T s).st a = e ↔ s.st a = e := by
  cases hg : T.g a with
  | none => simp [ov, ovSt_none _ hg]
  | some x =>
    obtain ⟨e', c⟩ := x
    obtain ⟨h1, _⟩ := S.g hg
    simp only [ov, ovSt, hg, h1]
    rcases hf hg with rfl | rfl <;> rcases he with rfl | rfl <;> simp

theorem Sep.lkFree (S : Sep T s) {a : Nat} {e : GSt} (he : e = .rd ∨ e = .recd)
    (hf : ∀ {e c}, T.g a = some (e, c) → e = .recAux ∨ e = .rtt) : lk P (ov T s) a e = lk P s a e := by
  unfold lk; congr 1; exact decide_eq_decide.mpr (S.stFree he hf)

/-- A REC is running in the one memory if it is in the other. -/
theorem Sep.running (S : Sep T s) (h : InvG P s ti di rl) (r : Nat) :
    ((ov T s).st r = .recd ∧ (ov T s).rc r = 1) ↔ (s.st r = .recd ∧ s.rc r = 1) := by
  cases hg : T.g r with
  | none =>
    constructor
    · rintro ⟨h1, h2⟩
      have h1 : s.st r = .recd := by simpa [ov, ovSt_none _ hg] using h1
      refine ⟨h1, ?_⟩
      simpa [ov, ovRc_zero _ (S.rc0 (a := r) (by rw [h1]; simp))] using h2
    · rintro ⟨h1, h2⟩
      refine ⟨by simpa [ov, ovSt_none _ hg] using h1, ?_⟩
      simpa [ov, ovRc_zero _ (S.rc0 (a := r) (by rw [h1]; simp))] using h2
  | some x =>
    obtain ⟨e', c⟩ := x
    obtain ⟨h1, _⟩ := S.g hg
    have h0 := h.rc0 r (Or.inr (Or.inl h1))
    have hz := S.rc0 (a := r) (by rw [h1]; simp)
    constructor
    · rintro ⟨_, h2⟩
      simp only [ov, ovRc_zero _ hz, h0] at h2
      cases h2
    · rintro ⟨h2, _⟩; rw [h1] at h2; cases h2

/-- The hardware's table walk of a live realm. -/
theorem hwWalk_ov (S : Sep T s) (h : InvG P s ti di rl) {rdA a : Nat} (ha : a < 2 ^ 52) :
    ∀ d g, s.st g = .rtt → ti g = ⟨rdA, d, al d a⟩ → hwWalk (ov T s) a d g = hwWalk s a d g := by
  intro d
  induction d with
  | zero =>
    intro g hg _
    unfold hwWalk
    rw [getTab_ov (S.none (by rw [hg]; simp))]
  | succ d ih =>
    intro g hg hti
    unfold hwWalk
    rw [getTab_ov (S.none (by rw [hg]; simp))]
    have hT := h.tab g hg
    rw [getTab_of_mem hT.mem]
    dsimp only
    have hent := hT.ent (idx (d + 1) a) (idx_lt _ _)
    rw [hti] at hent
    dsimp only at hent
    rw [al_add _ _ ha] at hent
    cases hx : tabOf s g (idx (d + 1) a) with
    | table c =>
      rw [hx] at hent
      obtain ⟨_, _, hc, htc, _⟩ := hent
      exact ih c hc htc
    | _ => rfl

theorem translate_ov (S : Sep T s) (h : InvG P s ti di rl) {rdA : Nat} (hr : s.st rdA = .rd) (a : Nat) :
    translate (ov T s) (rdOf s rdA) a = translate s (rdOf s rdA) a := by
  unfold translate
  by_cases ha : a < (rdOf s rdA).ipaSize
  · rw [if_pos ha, if_pos ha]
    obtain ⟨_, _, h3, h4⟩ := root_spec h hr ha
    rw [hwWalk_ov S h (lt_of_lt_of_le ha (h.rds _ hr).geo.ipa_lt) _ _ h3 h4]
  · rw [if_neg ha, if_neg ha]

/-- What a single operation other than the four does in a memory with changes under way: the
same, or it finds that a granule to be undelegated is in use. -/
theorem step_ov (S : Sep T s) (h : InvG P s ti di rl) {op : Op} (hw : isWalk op = false) (hl : isLife op = false)
    (hf : ∀ x ∈ foot (ov T s) op, ∀ {e c}, T.g x = some (e, c) → e = .recAux ∨ e = .rtt) :
    step P (ov T s) op = ovOut T (step P s op) ∨
      (step P (ov T s) op = some (ov T s, errInput) ∧ ∃ a, op = .granuleUndelegate a ∧ T.g a ≠ none) := by
  cases op with
  | granuleDelegate a =>
    left
    simp only [step, granuleDelegate, S.lkNs]
    split
    · rename_i h1
      have hn := S.none (a := a) (by rw [((lk_iff ..).mp h1).2]; simp)
      rw [show (ov T s).pas = s.pas from rfl]
      split
      · simp only [ovOut, ov, ovSt_upd _ _ hn, ovMem_upd _ _ hn]
      · rfl
    · rfl
  | granuleUndelegate a =>
    cases hn : T.g a with
    | none =>
      left
      simp only [step, granuleUndelegate, lk_ov hn]
      split
      · rw [show (ov T s).pas = s.pas from rfl]
        split
        · simp only [ovOut, ov, ovSt_upd _ _ hn]
        · rfl
      · rfl
    | some x =>
      right
      obtain ⟨e, c⟩ := x
      refine ⟨?_, a, rfl, by rw [hn]; simp⟩
      have he : lk P (ov T s) a .delegated = false := by
        obtain ⟨_, h2⟩ := S.g hn
        simp only [lk, ov, ovSt, hn]
        rcases h2 with rfl | rfl | rfl | rfl <;> simp
      simp only [step, granuleUndelegate, he]
      rfl
  | realmActivate rd =>
    left
    simp only [step, realmActivate, S.lkFree (Or.inl rfl) (hf rd (by simp [foot]))]
    split
    · rename_i h1
      have hn := S.none (a := rd) (by rw [((lk_iff ..).mp h1).2]; simp)
      rw [getRd_ov hn]
      cases getRd s rd with
      | none => rfl
      | some r =>
        dsimp only
        split
        · simp only [ovOut, ov, ovMem_upd _ _ hn]
        · rfl
    · rfl
  | recAuxCount rd =>
    left
    simp only [step, recAuxCount, S.lkFree (Or.inl rfl) (hf rd (by simp [foot]))]
    split
    · rename_i h1
      have hn := S.none (a := rd) (by rw [((lk_iff ..).mp h1).2]; simp)
      rw [getRd_ov hn]
      cases getRd s rd <;> rfl
    · rfl
  | psciComplete c t st =>
    left
    change psciComplete P (ov T s) c t st = ovOut T (psciComplete P s c t st)
    unfold psciComplete
    rw [S.lkFree (Or.inr rfl) (hf c (by simp [foot])), S.lkFree (Or.inr rfl) (hf t (by simp [foot]))]
    by_cases h1 : c ≠ t ∧ lk P s c .recd = true ∧ lk P s t .recd = true
    swap
    · rw [if_neg h1, if_neg h1]; rfl
    rw [if_pos h1, if_pos h1]
    have s1 := ((lk_iff ..).mp h1.2.1).2
    have s2 := ((lk_iff ..).mp h1.2.2).2
    have n1 := S.none (a := c) (by rw [s1]; simp)
    have n2 := S.none (a := t) (by rw [s2]; simp)
    have r1 : (ov T s).rc c = s.rc c := ovRc_zero _ (S.rc0 (by rw [s1]; simp))
    have r2 : (ov T s).rc t = s.rc t := ovRc_zero _ (S.rc0 (by rw [s2]; simp))
    rw [getRec_ov n1, getRec_ov n2, r1, r2]
    have key : ∀ x (ret : Ret), some (State.mk (ov T s).st (ov T s).rc (upd (ov T s).mem c x) (ov T s).pas
        (ov T s).vmid, ret) = ovOut T (some ({ s with mem := upd s.mem c x }, ret)) := by
      intro x ret; simp only [ovOut, ov, ovMem_upd _ _ n1]
    have key2 : ∀ x y (ret : Ret), some (State.mk (ov T s).st (ov T s).rc (upd (upd (ov T s).mem t y) c x) (ov T s).pas
        (ov T s).vmid, ret) = ovOut T (some ({ s with mem := upd (upd s.mem t y) c x }, ret)) := by
      intro x y ret; simp only [ovOut, ov, ovMem_upd _ _ n1, ovMem_upd _ _ n2]
    generalize s.rc c = rcc
    generalize s.rc t = rct
    by_cases h2 : rcc ≠ 0
    · rw [if_pos h2, if_pos h2]; rfl
    rw [if_neg h2, if_neg h2]
    cases getRec s c with
    | none => rfl
    | some x =>
      cases getRec s t with
      | none => rfl
      | some y =>
        dsimp only
        by_cases h3 : x.psciPending = false
        · rw [if_pos h3, if_pos h3]; rfl
        rw [if_neg h3, if_neg h3]
        by_cases h3 : x.rd ≠ y.rd
        · rw [if_pos h3, if_pos h3]; rfl
        rw [if_neg h3, if_neg h3]
        by_cases h3 : (Mpidr.el1ToIdx (x.regs 1)).toNat ≠ y.idx
        · rw [if_pos h3, if_pos h3]; rfl
        rw [if_neg h3, if_neg h3]
        by_cases h3 : isCpuOn (x.regs 0) = true
        · rw [if_pos h3, if_pos h3]
          by_cases h4 : st ≠ psciSuccess ∧ st ≠ psciDenied
          · rw [if_pos h4, if_pos h4]; rfl
          rw [if_neg h4, if_neg h4]
          by_cases h5 : rct ≠ 0 ∨ y.runnable = true
          · rw [if_pos h5, if_pos h5]; exact key _ _
          rw [if_neg h5, if_neg h5]
          by_cases h6 : st = psciDenied
          · rw [if_pos h6, if_pos h6]; exact key _ _
          rw [if_neg h6, if_neg h6]
          exact key2 _ _ _
        rw [if_neg h3, if_neg h3]
        by_cases h4 : isAffinityInfo (x.regs 0) = true
        · rw [if_pos h4, if_pos h4]
          by_cases h5 : st ≠ psciSuccess
          · rw [if_pos h5, if_pos h5]; rfl
          rw [if_neg h5, if_neg h5]
          exact key _ _
        rw [if_neg h4, if_neg h4]; rfl
  | recEnter r run acc rej =>
    left
    simp only [step, recEnter, S.lkNs, S.lkFree (Or.inr rfl) (hf r (by simp [foot]))]
    split
    · split
      · rename_i h1
        have s1 := ((lk_iff ..).mp h1).2
        have n1 := S.none (a := r) (by rw [s1]; simp)
        have z1 := S.rc0 (a := r) (by rw [s1]; simp)
        have r1 : (ov T s).rc r = s.rc r := ovRc_zero _ z1
        rw [getRec_ov n1, r1, show (ov T s).pas = s.pas from rfl, getRec_of_mem (h.recs r s1).mem]
        dsimp only
        rw [getRd_ov (S.none (by rw [(h.recs r s1).rd]; simp))]
        split
        · rfl
        · split
          · rfl
          · cases getRd s (recOf s r).rd with
            | none => rfl
            | some x =>
              dsimp only
              split
              · rfl
              · rfl
              · split
                · rfl
                · split
                  · rfl
                  · split
                    · rfl
                    · simp only [ovOut, ov, ovMem_upd _ _ n1, ovRc_upd _ _ z1]
      · rfl
    · rfl
  | recRun r stop off regs pc =>
    left
    simp only [step, recRun, S.running h]
    split
    · rename_i h1
      have n1 := S.none (a := r) (by rw [h1.1]; simp)
      have z1 := S.rc0 (a := r) (by rw [h1.1]; simp)
      rw [getRec_ov n1]
      cases getRec s r with
      | none => rfl
      | some x =>
        dsimp only
        cases stop <;> simp [ovOut, ov, ovMem_upd _ _ n1, ovRc_upd _ _ z1]
    · rfl
  | psciRequest r =>
    left
    simp only [step, psciRequest, S.running h]
    split
    · rename_i h1
      have n1 := S.none (a := r) (by rw [h1.1]; simp)
      have z1 := S.rc0 (a := r) (by rw [h1.1]; simp)
      rw [getRec_ov n1, getRec_of_mem (h.recs r h1.1).mem]
      dsimp only
      rw [getRd_ov (S.none (by rw [(h.recs r h1.1).rd]; simp))]
      cases getRd s (recOf s r).rd with
      | none => rfl
      | some x =>
        dsimp only
        split
        · simp only [ovOut, ov, ovMem_upd _ _ n1, ovRc_upd _ _ z1]
        · rfl
    · rfl
  | rsiIpaStateSet r base top v chg =>
    left
    simp only [step, rsiIpaStateSet, S.running h]
    split
    · rename_i h1
      have n1 := S.none (a := r) (by rw [h1.1]; simp)
      have z1 := S.rc0 (a := r) (by rw [h1.1]; simp)
      rw [getRec_ov n1, getRec_of_mem (h.recs r h1.1).mem]
      dsimp only
      rw [getRd_ov (S.none (by rw [(h.recs r h1.1).rd]; simp))]
      cases getRd s (recOf s r).rd with
      | none => rfl
      | some x =>
        dsimp only
        split
        · simp only [ovOut, ov, ovMem_upd _ _ n1]
        · simp only [ovOut, ov, ovMem_upd _ _ n1, ovRc_upd _ _ z1]
    · rfl
  | psciSystemOff r =>
    left
    simp only [step, psciSystemOff, S.running h]
    split
    · rename_i h1
      have n1 := S.none (a := r) (by rw [h1.1]; simp)
      have z1 := S.rc0 (a := r) (by rw [h1.1]; simp)
      have hrd := (h.recs r h1.1).rd
      have n2 := S.none (a := (recOf s r).rd) (by rw [hrd]; simp)
      rw [getRec_ov n1, getRec_of_mem (h.recs r h1.1).mem]
      dsimp only
      rw [getRd_ov n2, show (ov T s).st (recOf s r).rd = s.st (recOf s r).rd from ovSt_none _ n2,
        if_pos hrd, if_pos hrd]
      cases getRd s (recOf s r).rd with
      | none => rfl
      | some x => simp only [ovOut, ov, ovMem_upd _ _ n2, ovRc_upd _ _ z1]
    · rfl
  | rsiExtend r i v =>
    left
    simp only [step, rsiExtend, S.running h]
    split
    · rename_i h1
      have n1 := S.none (a := r) (by rw [h1.1]; simp)
      have hrd := (h.recs r h1.1).rd
      have n2 := S.none (a := (recOf s r).rd) (by rw [hrd]; simp)
      rw [getRec_ov n1, getRec_of_mem (h.recs r h1.1).mem]
      dsimp only
      rw [getRd_ov n2, show (ov T s).st (recOf s r).rd = s.st (recOf s r).rd from ovSt_none _ n2,
        if_pos hrd, if_pos hrd]
      cases getRd s (recOf s r).rd with
      | none => rfl
      | some x =>
        dsimp only
        split
        · simp only [ovOut, ov, ovMem_upd _ _ n2]
        · rfl
    · rfl
  | realmWrite r a p =>
    left
    obtain ⟨s2, r2, e2, _, hh⟩ := realmWrite_spec h r a p
    simp only [step]
    simp only [realmWrite] at e2 ⊢
    simp only [S.running h]
    split
    · rename_i h1
      rw [if_pos h1] at e2
      have n1 := S.none (a := r) (by rw [h1.1]; simp)
      have hrd := (h.recs r h1.1).rd
      have n2 := S.none (a := (recOf s r).rd) (by rw [hrd]; simp)
      rw [getRec_of_mem (h.recs r h1.1).mem] at e2
      rw [getRec_ov n1, getRec_of_mem (h.recs r h1.1).mem]
      dsimp only at e2 ⊢
      rw [getRd_of_mem (h.rds _ hrd).mem] at e2
      rw [getRd_ov n2, getRd_of_mem (h.rds _ hrd).mem]
      dsimp only at e2 ⊢
      rw [translate_ov S h hrd]
      cases ht : translate s (rdOf s (recOf s r).rd) a with
      | none => rfl
      | some y =>
        obtain ⟨pa, ns⟩ := y
        dsimp only
        rw [show (ov T s).pas = s.pas from rfl]
        by_cases hp : s.pas (pa / 4096 * 4096) = if ns = true then Pas.ns else Pas.realm
        · rw [if_pos hp, if_pos hp]
          have n3 : T.g (pa / 4096 * 4096) = none := by
            obtain ⟨_, h2⟩ := translate_spec h hrd ht
            apply S.none
            rcases h2 with ⟨rfl, _, h4, _⟩ | ⟨rfl, _, _⟩
            · rw [h4]; simp
            · rw [ns_of_pas h hp]; simp
          simp only [ovOut, ov, ovMem_upd _ _ n3]
        · rw [if_neg hp, if_neg hp]; rfl
    · rfl
  | auxWrite r a p =>
    left
    simp only [step, auxWrite, S.running h]
    split
    · rename_i h1
      have n1 := S.none (a := r) (by rw [h1.1]; simp)
      rw [getRec_ov n1, getRec_of_mem (h.recs r h1.1).mem]
      dsimp only
      split
      · rename_i ha
        have n2 := S.none (a := a) (by rw [(h.recs r h1.1).auxSt a ha]; simp)
        simp only [ovOut, ov, ovMem_upd _ _ n2]
      · rfl
    · rfl
  | hostWrite a p =>
    left
    simp only [step, hostWrite]
    rw [show (ov T s).pas = s.pas from rfl]
    split
    · rename_i hp
      have n2 := S.none (a := a) (by rw [ns_of_pas h hp]; simp)
      simp only [ovOut, ov, ovMem_upd _ _ n2]
    · rfl
  | el3Move a toNs =>
    left
    simp only [step, el3Move]
    rw [show (ov T s).pas = s.pas from rfl]
    split <;> rfl
  | realmCreate | realmDestroy | recCreate | recDestroy => cases hl
  | _ => cases hw

end

end Verif.Life
