import Verif.Desc.SimRest
import Verif.Rmm.Demo

/-!
# C64: the code on 64-bit descriptors and the machine on decoded entries agree

Everything proved about `Verif.Rmm.step` (isolation, lifecycle, footprint, TLB
maintenance, measurement …) is about decoded entries.  Here is the bridge to what is
in memory: the same commands, written with the descriptor helpers of
/repo/lib/s2tt/src/s2tt.c on the 64-bit words of the tables.
-/

namespace Verif.Desc

open Rmm (State Plat Ret Op Reach PlatOk Inv InvG rdOf)
open S2tte

theorem step_sim {P : Plat} {a : State} {c : CState} (hP : PlatOk P) (h : Inv P a) (R : Refines a c) (op : Op) :
    Sim (Rmm.step P a op) (stepW P c op) := by
  obtain ⟨ti, di, rl, h⟩ := h
  obtain ⟨lp, dp, R⟩ := R
  cases op with
  | granuleDelegate x => exact granuleDelegate_sim R x
  | granuleUndelegate x => exact granuleUndelegate_sim R x
  | rttCreate rd rtt x lvl => exact rttCreate_sim hP h R rd rtt x lvl
  | rttFold rd x lvl => exact rttFold_sim h R rd x lvl
  | rttDestroy rd x lvl => exact rttDestroy_sim h R rd x lvl
  | rttMapUnprotected rd x lvl desc => exact rttMapUnprotected_sim h R rd x lvl desc
  | rttUnmapUnprotected rd x lvl => exact rttUnmapUnprotected_sim h R rd x lvl
  | rttReadEntry rd x lvl => exact rttReadEntry_sim h R rd x lvl
  | dataCreateUnknown rd data x => exact dataCreateUnknown_sim hP h R rd data x
  | dataCreate rd data x src flags => exact dataCreate_sim hP h R rd data x src flags
  | dataDestroy rd x => exact dataDestroy_sim h R rd x
  | rttInitRipas rd base top => exact rttInitRipas_sim h R rd base top
  | rttSetRipas rd r base top => exact rttSetRipas_sim h R rd r base top
  | realmActivate rd => exact realmActivate_sim h R rd
  | realmCreate rd pA q => exact realmCreate_sim h R rd pA q
  | realmDestroy rd => exact realmDestroy_sim h R rd
  | recCreate rd r pA q => exact recCreate_sim R rd r pA q
  | recDestroy r => exact recDestroy_sim R r
  | recAuxCount rd => exact recAuxCount_sim R rd
  | psciComplete x y v => exact psciComplete_sim R x y v
  | recEnter r run acc rej => exact recEnter_sim R r run acc rej
  | recRun r stop off regs pc => exact recRun_sim R r stop off regs pc
  | psciRequest r => exact psciRequest_sim R r
  | rsiIpaStateSet r base top v chg => exact rsiIpaStateSet_sim R r base top v chg
  | psciSystemOff r => exact psciSystemOff_sim R r
  | rsiExtend r i v => exact rsiExtend_sim R r i v
  | realmWrite r x p => exact realmWrite_sim h R r x p
  | auxWrite r x p => exact auxWrite_sim R r x p
  | hostWrite x p => exact hostWrite_sim R x p
  | el3Move x b => exact el3Move_sim R x b

/-- Nothing is a table at boot, so any words will do. -/
theorem init_refines {P : Plat} {c : CState} (h : Rmm.Init P c.s) : Refines c.s c := by
  have e : strip c.s = c.s := by
    unfold strip
    have : (fun g => stripC (c.s.mem g)) = c.s.mem := by
      funext g; obtain ⟨p, hp⟩ := h.mem g; rw [hp]; rfl
    rw [this]
  refine ⟨fun _ => false, fun _ => 0, e.symm, ?_, ?_, ?_⟩
  · intro g t hg; obtain ⟨p, hp⟩ := h.mem g; rw [hp] at hg; cases hg
  · intro g t hg; obtain ⟨p, hp⟩ := h.mem g; rw [hp] at hg; cases hg
  · intro g t hg; obtain ⟨p, hp⟩ := h.mem g; rw [hp] at hg; cases hg

section
variable {P : Plat} {a : State} {c : CState}

/-! ## The theorems -/

/-- C64: on related states the two machines do the same: the same assertion fails or
none does, the same registers are returned, and the new states are related. -/
theorem C64_step (hP : PlatOk P) (ha : Reach P a) (R : Refines a c) (op : Op) :
    (stepW P c op = none ∧ Rmm.step P a op = none) ∨
    ∃ a' c' ret, stepW P c op = some (c', ret) ∧ Rmm.step P a op = some (a', ret) ∧ Refines a' c' := by
  rcases step_sim hP (ha.inv hP) R op with ⟨h1, h2⟩ | ⟨a', c', ret, h1, h2, h3⟩
  · exact Or.inl ⟨h2, h1⟩
  · exact Or.inr ⟨a', c', ret, h2, h1, h3⟩

/-- C64: every state the code reaches on words is the encoding of a reachable state of
the entry-level machine, so what holds of all those holds of the code. -/
theorem C64_reach (hP : PlatOk P) (hc : ReachW P c) : ∃ a, Reach P a ∧ Refines a c := by
  induction hc with
  | init h => exact ⟨_, .init h, init_refines h⟩
  | step _ hs ih =>
    obtain ⟨a, ha, R⟩ := ih
    rcases C64_step hP ha R _ with ⟨h1, _⟩ | ⟨a', c', r, h1, h2, h3⟩
    · rw [h1] at hs; cases hs
    · rw [h1] at hs; cases hs; exact ⟨a', .step ha h2, h3⟩

/-- What the host observes of a list of operations: the returned registers of each, up to
a failed assertion. -/
def trace {S : Type} (f : S → Op → Option (S × Ret)) (s : S) : List Op → List (Option Ret)
  | [] => []
  | op :: l =>
    match f s op with
    | none => [none]
    | some (s', r) => some r :: trace f s' l

/-- C64: from boot, whatever the host and the realms do, the two machines return the same
registers at every step. -/
theorem C64_trace (hP : PlatOk P) (h : Rmm.Init P c.s) (l : List Op) :
    trace (stepW P) c l = trace (Rmm.step P) c.s l := by
  suffices ∀ a c, Reach P a → Refines a c → trace (stepW P) c l = trace (Rmm.step P) a l from
    this _ _ (.init h) (init_refines h)
  clear h
  induction l with
  | nil => intros; rfl
  | cons op l ih =>
    intro a c ha R
    unfold trace
    rcases C64_step hP ha R op with ⟨h1, h2⟩ | ⟨a', c', r, h1, h2, h3⟩
    · rw [h1, h2]
    · rw [h1, h2]; dsimp only; rw [ih a' c' (.step ha h2) h3]

/-- C64: the MMU, walking the words, finds what the entries say. -/
theorem C64_translate (hP : PlatOk P) (ha : Reach P a) (R : Refines a c) {rdA : Nat} {r : Rmm.Rd}
    (hst : c.s.st rdA = .rd) (hr : Rmm.getRd c.s rdA = some r) (x : Nat) :
    translateW c r x = Rmm.translate a r x := by
  obtain ⟨ti, di, rl, h⟩ := ha.inv hP
  obtain ⟨lp, dp, R⟩ := R
  rw [R.same] at hst
  rw [R.same, getRd_strip, Rmm.getRd_eq h hst, Option.some.injEq] at hr
  rw [← hr]; exact translate_eq h R hst x

/-- C64: the MMU reaches, through an address below the top of the protected space, only
DATA granules, in the Realm physical address space; through any other only Non-secure
memory; and no address outside the realm's space is translated. -/
theorem C64_mmu (hP : PlatOk P) (hc : ReachW P c) {rdA x pa : Nat} {ns : Bool} {r : Rmm.Rd} (hst : c.s.st rdA = .rd)
    (hr : Rmm.getRd c.s rdA = some r) (ht : translateW c r x = some (pa, ns)) :
    x < r.ipaSize ∧ (ns = true ↔ r.parSize ≤ x) ∧
    (ns = false → c.s.st (pa / 4096 * 4096) = .data ∧ c.s.pas (pa / 4096 * 4096) = .realm) := by
  obtain ⟨a, ha, R⟩ := C64_reach hP hc
  rw [C64_translate hP ha R hst hr] at ht
  obtain ⟨ti, di, rl, h⟩ := ha.inv hP
  obtain ⟨lp, dp, R⟩ := R
  rw [R.same] at hst
  rw [R.same, getRd_strip, Rmm.getRd_eq h hst, Option.some.injEq] at hr
  rw [← hr] at ht ⊢
  have e1 : c.s.st = a.st := by rw [R.same]; rfl
  have e2 : c.s.pas = a.pas := by rw [R.same]; rfl
  rw [e1, e2]
  obtain ⟨h1, h2⟩ := Rmm.translate_spec h hst ht
  refine ⟨h1, ?_⟩
  rcases h2 with ⟨rfl, h3, h4, _⟩ | ⟨rfl, h3, _⟩
  · have hn : a.st (pa / 4096 * 4096) ≠ .ns := by rw [h4]; simp
    exact ⟨⟨by simp, by omega⟩, fun _ => ⟨h4, (h.gpt _ (h.trk _ hn)).mp hn⟩⟩
  · exact ⟨⟨fun _ => h3, fun _ => rfl⟩, by simp⟩

/-- C64: the MMU never takes two realms, or two pages of one realm, to the same granule
of the Realm physical address space. -/
theorem C64_mmu_exclusive (hP : PlatOk P) (hc : ReachW P c) {rd1 rd2 x1 x2 pa1 pa2 : Nat} {r1 r2 : Rmm.Rd}
    (hst1 : c.s.st rd1 = .rd) (hr1 : Rmm.getRd c.s rd1 = some r1)
    (hst2 : c.s.st rd2 = .rd) (hr2 : Rmm.getRd c.s rd2 = some r2)
    (h1 : translateW c r1 x1 = some (pa1, false)) (h2 : translateW c r2 x2 = some (pa2, false))
    (he : pa1 / 4096 = pa2 / 4096) : rd1 = rd2 ∧ x1 / 4096 = x2 / 4096 := by
  obtain ⟨a, ha, R⟩ := C64_reach hP hc
  rw [C64_translate hP ha R hst1 hr1] at h1
  rw [C64_translate hP ha R hst2 hr2] at h2
  obtain ⟨ti, di, rl, h⟩ := ha.inv hP
  obtain ⟨lp, dp, R⟩ := R
  rw [R.same] at hst1 hst2
  rw [R.same, getRd_strip, Rmm.getRd_eq h hst1, Option.some.injEq] at hr1
  rw [R.same, getRd_strip, Rmm.getRd_eq h hst2, Option.some.injEq] at hr2
  rw [← hr1] at h1
  rw [← hr2] at h2
  rcases (Rmm.translate_spec h hst1 h1).2 with ⟨_, _, _, k1, _⟩ | ⟨k, _⟩
  swap; · cases k
  rcases (Rmm.translate_spec h hst2 h2).2 with ⟨_, _, _, k2, _⟩ | ⟨k, _⟩
  swap; · cases k
  rw [he, k2] at k1
  simp only [Prod.mk.injEq] at k1
  exact ⟨k1.1.symm, by omega⟩

end

/-! ## The hypotheses are met -/

section examples
open Rmm.Demo

/-- A list of operations on words. -/
def runW (P : Plat) (c : CState) : List Op → Option CState
  | [] => some c
  | op :: l =>
    match stepW P c op with
    | none => none
    | some (c', _) => runW P c' l

theorem runW_reach {P : Plat} : ∀ (l : List Op) {c c' : CState}, ReachW P c → runW P c l = some c' → ReachW P c' := by
  intro l
  induction l with
  | nil => intro c c' h e; simp only [runW, Option.some.injEq] at e; rw [← e]; exact h
  | cons op l ih =>
    intro c c' h e
    simp only [runW] at e
    cases hs : stepW P c op with
    | none => rw [hs] at e; cases e
    | some x =>
      obtain ⟨c1, ret⟩ := x
      rw [hs] at e
      exact ih (ReachW.step h hs) e

/-- Boot with arbitrary words. -/
def bootW : CState := ⟨boot, fun g i => BitVec.ofNat 64 (g * 7 + i)⟩

theorem ex {l : List Op} {p : CState → Bool} (h : (runW plat bootW l).any p = true) : ∃ c, ReachW plat c ∧ p c = true := by
  cases hr : runW plat bootW l with
  | none => rw [hr] at h; cases h
  | some c => rw [hr] at h; exact ⟨c, runW_reach l (.init (boot_init :)) hr, h⟩

/-- The words of a realm with data, RECs and a shared page: the descriptors are those the
architecture defines, and the MMU translates. -/
example : ∃ c, ReachW plat c ∧ (c.s.st (G 16) == .rd &&
    (match Rmm.getRd c.s (G 16) with
     | none => false
     | some r => translateW c r 4097 == some (G 23 + 1, false) && translateW c r (2 ^ 32 + 5) == some (0x9005, true) &&
        (translateW c r 0x5000).isNone && (translateW c r (2 ^ 33)).isNone) &&
    c.tw (G 17) 0 == 0x12003#64 && c.tw (G 18) 0 == 0x13003#64) = true :=
  ex (l := all) (by decide +kernel)

/-- Non-secure memory mapped by a 2MB block, split into pages, and folded back. -/
def split : List Op :=
  all ++ delegates 90 1 ++
  [.rttMapUnprotected (G 16) (2 ^ 32 + 2 ^ 21) 2 0x80000040, .rttCreate (G 16) (G 90) (2 ^ 32 + 2 ^ 21) 3]

example : ∃ c, ReachW plat c ∧ (c.tw (G 20) 1 == 0x5a003#64 && c.tw (G 90) 1 == 0xc0000080001743#64 &&
    (match Rmm.getRd c.s (G 16) with
     | none => false
     | some r => translateW c r (2 ^ 32 + 2 ^ 21 + 0x1005) == some (0x80001005, true))) = true :=
  ex (l := split) (by decide +kernel)

example : ∃ c, ReachW plat c ∧ (c.tw (G 20) 1 == 0xc0000080000741#64 && c.s.st (G 90) == .delegated) = true :=
  ex (l := split ++ [.rttFold (G 16) (2 ^ 32 + 2 ^ 21) 3]) (by decide +kernel)

example : trace (stepW plat) bootW split = trace (Rmm.step plat) boot split :=
  C64_trace plat_ok (c := bootW) boot_init _

end examples

end Verif.Desc
