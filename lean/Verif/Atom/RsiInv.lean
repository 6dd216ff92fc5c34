import Verif.Atom.Rsi
import Verif.Atom.Progress
import Verif.Rmm.Hist

/-!
# The invariant of the machine with RSI calls
-/

namespace Verif.Atom

open Rmm

/-- The REC that an operation stops or changes while it runs. -/
def mover : Op → Option Nat
  | .recRun r .. | .psciRequest r | .rsiIpaStateSet r .. | .psciSystemOff r => some r
  | _ => none

theorem mover_actor {op : Op} {x : Nat} (h : actor op ≠ some x) : mover op ≠ some x := by
  cases op <;> simp_all [actor, mover]

/-- REC `x` of realm `rd` is running. -/
structure Runs (s : State) (x rd : Nat) : Prop where
  st : s.st x = .recd
  rc : s.rc x = 1
  rd : (recOf s x).rd = rd

section
variable {P : Plat} {s s' : State} {ti : Nat → TabInfo} {di : Nat → Nat × Nat} {rl : Nat → List Nat}

/-- A running REC goes on running, whatever happens elsewhere. -/
theorem Runs.step (hP : PlatOk P) (h : InvG P s ti di rl) {op : Op} {ret : Ret}
    (e : Rmm.step P s op = some (s', ret)) {x rd : Nat} (k : Runs s x rd) (ha : mover op ≠ some x) :
    Runs s' x rd := by
  rcases step_eff hP h e with ⟨rfl, _⟩ | f
  · exact k
  have h1 : s'.st x = .recd := by
    rcases Rmm.Eff.st_step h f x with h1 | h1
    · rw [h1, k.st]
    · have hs := k.st
      cases h1 with
      | @recDestroy r h2 =>
        have kd : RecDestroyOk s r s' ret := f
        have hne : x ≠ r := by
          rintro rfl
          have := kd.rc
          rw [k.rc] at this; cases this
        rw [kd.st]
        show upd (fun a => if a ∈ (recOf s r).aux then GSt.delegated else s.st a) r .delegated x = .recd
        rw [upd_ne _ _ _ hne, if_neg, hs]
        intro hm
        have := (h.recs r kd.recd).auxSt x hm
        rw [hs] at this; cases this
      | _ => simp_all
  rcases Rmm.Eff.rec_step h f h1 with ⟨_, h2, h3⟩ | h2
  · exact ⟨h1, by rw [h3, k.rc], by rw [h2, k.rd]⟩
  · have := k.rc
    have := k.st
    cases h2 <;> simp_all [mover]

/-- What is known of an RSI call of a CPU at position `pc`. -/
structure CallOk (s : State) (pc : Pc) (c : Call) : Prop where
  runs : Runs s c.recA c.rd
  al : c.a % 4096 = 0
  par : c.a < (rdOf s c.rd).parSize
  pos : (c.pa = none ∧ ∃ x, pc = .root (rop c) x) ∨
    ∃ x d g, pc = .walking (rop c) x d g ∧
      ∀ pa, c.pa = some pa → ∃ b, tabOf s g (idx d c.a) = .assigned .ram b ∧ pa = b + c.a % sz d

/-- The invariant of the machine with `n` CPUs. -/
structure RInv (P : Plat) (n : Nat) (r : R) : Prop where
  minv : MInv P n r.m
  calls : ∀ i < n, ∀ c, r.call i = some c → CallOk r.m.s (r.m.pc i) c
  one : ∀ i < n, ∀ j < n, i ≠ j → ∀ c c', r.call i = some c → r.call j = some c' → c.recA ≠ c'.recA

/-- The table locked by a CPU stays the same. -/
theorem tabOf_keeps {x : Nat} (k : Keeps s s' x) (hx : s.st x = .rtt) : tabOf s' x = tabOf s x := by
  rcases k.mem with ⟨h1, _⟩ | ⟨h1, _⟩
  · rw [hx] at h1; cases h1
  · unfold tabOf getTab; rw [h1]

/-- An RSI call is not disturbed by an operation. -/
theorem CallOk.step (hP : PlatOk P) (h : InvG P s ti di rl) {op : Op} {ret : Ret}
    (e : Rmm.step P s op = some (s', ret)) {pc : Pc} {c : Call} (k : CallOk s pc c) (kp : PcOk P s ti pc)
    (ha : mover op ≠ some c.recA) (hk : ∀ x ∈ held pc, Keeps s s' x) : CallOk s' pc c := by
  have hr := k.runs.step hP h e ha
  have hrd : s.st c.rd = .rd := by
    have := (h.recs _ k.runs.st).rd
    rwa [k.runs.rd] at this
  have hrd' : s'.st c.rd = .rd := by
    obtain ⟨ti', di', rl', h'⟩ := step_inv hP ⟨ti, di, rl, h⟩ e
    have := (h'.recs _ hr.st).rd
    rwa [hr.rd] at this
  refine ⟨hr, k.al, ?_, ?_⟩
  · rcases step_eff hP h e with ⟨rfl, _⟩ | f
    · exact k.par
    · have := (Rmm.Eff.geo h f hrd hrd').ipa
      have hp := k.par
      unfold Rd.parSize at hp ⊢
      rw [this]; exact hp
  · rcases k.pos with hp | ⟨x, d, g, hp, hpa⟩
    · exact Or.inl hp
    · refine Or.inr ⟨x, d, g, hp, fun pa hh => ?_⟩
      subst hp
      rw [tabOf_keeps (hk g List.mem_cons_self) kp.2.1.st]
      exact hpa pa hh

end

section
variable {P : Plat} {n : Nat} {m m' : M}

/-- A step of one CPU leaves alone what the others have locked; and where they are. -/
theorem mstep_keeps (hP : PlatOk P) (I : MInv P n m) {i : Nat} (hi : i < n) {act : Act} {op : Op} {ret : Ret}
    (e : mstep P n m i act = .ok m' (some (op, ret))) :
    (act = .start op ∨ isWalk op = true) ∧ (∀ j, j ≠ i → m'.pc j = m.pc j) ∧
      ∀ j < n, j ≠ i → ∀ x ∈ held (m.pc j), Keeps m.s m'.s x := by
  obtain ⟨ti, di, rl, h, hp, hd⟩ := I
  have hfin : ∀ o s r, m.fin i o s r = .ok m' (some (op, ret)) →
      o = op ∧ m'.s = s ∧ ∀ j, j ≠ i → m'.pc j = m.pc j := by
    intro o s r hh
    unfold M.fin at hh
    cases hh
    exact ⟨rfl, rfl, fun j hj => upd_ne _ _ _ hj⟩
  have hto : ∀ p, m.to i p ≠ .ok m' (some (op, ret)) := by
    intro p hh; unfold M.to at hh; cases hh
  have hsame : ∀ o r, m.fin i o m.s r = .ok m' (some (op, ret)) → (act = .start o ∨ isWalk o = true) →
      (act = .start op ∨ isWalk op = true) ∧ (∀ j, j ≠ i → m'.pc j = m.pc j) ∧
      ∀ j < n, j ≠ i → ∀ x ∈ held (m.pc j), Keeps m.s m'.s x := by
    intro o r hh ho
    obtain ⟨rfl, h2, h3⟩ := hfin _ _ _ hh
    refine ⟨ho, h3, fun j _ _ x _ => ?_⟩
    rw [h2]; exact .refl _ _
  cases act with
  | start o =>
    simp only [mstep, start] at e
    split at e
    swap
    · cases e
    by_cases hw : isWalk o = true
    · rw [if_pos hw] at e
      split at e
      · exact hsame _ _ e (Or.inl rfl)
      · exact absurd e (hto _)
    · rw [if_neg hw] at e
      split at e
      swap
      · cases e
      rename_i hf
      rw [List.all_eq_true] at hf
      cases he : step P m.s o with
      | none => rw [he] at e; cases e
      | some y =>
        obtain ⟨s', r'⟩ := y
        rw [he] at e
        obtain ⟨rfl, h2, h3⟩ := hfin _ _ _ e
        refine ⟨Or.inl rfl, h3, fun j hj _ x hx => ?_⟩
        rw [h2]
        have hxf : x ∉ foot m.s o := fun hh => (free_iff ..).mp (hf x hh) j hj hx
        rcases step_eff hP h he with ⟨rfl, _⟩ | k
        · exact .refl _ _
        · exact Eff.keeps k (by simpa using hw) ((hp j hj).held x hx) hxf
  | go =>
    have hpi := hp i hi
    simp only [mstep, go] at e
    cases hpc : m.pc i with
    | idle => rw [hpc] at e; cases e
    | locking o todo done =>
      rw [hpc] at e hpi
      cases todo with
      | cons p todo =>
        obtain ⟨x, y⟩ := p
        dsimp only at e
        split at e
        · exact hsame _ _ e (Or.inr hpi.1)
        · split at e
          · split at e
            · exact absurd e (hto _)
            · exact hsame _ _ e (Or.inr hpi.1)
          · cases e
      | nil =>
        dsimp only at e
        split at e
        · cases e
        · split at e
          · exact hsame _ _ e (Or.inr hpi.1)
          · cases e
          · exact absurd e (hto _)
    | checked o c =>
      rw [hpc] at e
      dsimp only at e
      split at e
      · split at e
        · exact absurd e (hto _)
        · cases e
      · cases e
    | root o c =>
      rw [hpc] at e
      dsimp only at e
      repeat' split at e
      all_goals first
        | exact absurd e (hto _)
        | cases e
    | walking o c d g =>
      rw [hpc] at e hpi
      obtain ⟨b, k, htgt⟩ := hpi
      dsimp only at e
      rw [getTab_eq h k.st] at e
      dsimp only at e
      have fin : (if ((extra m.s ⟨g, d, idx d (ipa o)⟩ o).all (free n m)) = true then
            match post P m.s c.r c.q ⟨g, d, idx d (ipa o)⟩ o with
            | none => Res.fail o
            | some (s', ret) => m.fin i o s' ret
          else .blocked) = .ok m' (some (op, ret)) →
          (Act.go = .start op ∨ isWalk op = true) ∧ (∀ j, j ≠ i → m'.pc j = m.pc j) ∧
          ∀ j < n, j ≠ i → ∀ x ∈ held (m.pc j), Keeps m.s m'.s x := by
        intro e
        split at e
        swap
        · cases e
        rename_i hx
        rw [List.all_eq_true] at hx
        cases hpost : post P m.s c.r c.q ⟨g, d, idx d (ipa o)⟩ o with
        | none => rw [hpost] at e; cases e
        | some y =>
          obtain ⟨s', r'⟩ := y
          rw [hpost] at e
          obtain ⟨rfl, h2, h3⟩ := hfin _ _ _ e
          refine ⟨Or.inr b.walk, h3, fun j hj hji x hxj => ?_⟩
          rw [h2]
          have hn : x ∉ g :: kept o := fun hh => hd j hj i hi hji x hxj (by rw [hpc]; exact hh)
          simp only [List.mem_cons, not_or] at hn
          exact .of_kept (post_kept hpost hn.1 hn.2 (fun hh => (free_iff ..).mp (hx x hh) j hj hxj))
      split at e
      · exact fin e
      · split at e
        · split at e
          · split at e
            · exact absurd e (hto _)
            · cases e
          · cases e
        · exact fin e

theorem mstep_quiet (I : MInv P n m) {i : Nat} (hi : i < n) {act : Act} (e : mstep P n m i act = .ok m' none) :
    (∀ j, j ≠ i → m'.pc j = m.pc j) := by
  cases act with
  | start op =>
    simp only [mstep, start] at e
    repeat' split at e
    all_goals first
      | (unfold M.to at e; cases e; exact fun j hj => upd_ne _ _ _ hj)
      | cases e
  | go => exact (go_fuel hi I e).2.1

end

end Verif.Atom
