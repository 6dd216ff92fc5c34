import Verif.Rmm.PropFail

/-!
# Realms do not interfere (C05)
-/

namespace Verif.Rmm

/-- The realm that an RMI command names, directly or through one of its RECs, or that executes; `none` when the
operation is addressed to no realm.  (Spelled out here, independently of the model.) -/
def addressed (s : State) : Op → Option Nat
  | .granuleDelegate _ | .granuleUndelegate _ | .hostWrite _ _ | .el3Move _ _ => none
  | .rttCreate rd _ _ _ | .rttFold rd _ _ | .rttDestroy rd _ _ | .rttMapUnprotected rd _ _ _
  | .rttUnmapUnprotected rd _ _ | .rttReadEntry rd _ _ | .dataCreateUnknown rd _ _ | .dataCreate rd _ _ _ _
  | .dataDestroy rd _ | .rttInitRipas rd _ _ | .rttSetRipas rd _ _ _ | .realmActivate rd | .realmCreate rd _ _
  | .realmDestroy rd | .recCreate rd _ _ _ | .recAuxCount rd => some rd
  | .recDestroy r | .psciComplete r _ _ | .recEnter r _ _ _ | .recRun r _ _ _ _ | .psciRequest r
  | .rsiIpaStateSet r _ _ _ _ | .psciSystemOff r | .rsiExtend r _ _ | .realmWrite r _ _ | .auxWrite r _ _ =>
    some (recOf s r).rd

/-- Everything that belongs to realm `r` is the same in both states. -/
structure SameRealm (s s' : State) (r : Nat) : Prop where
  /-- it exists in both or in neither -/
  live : s'.st r = .rd ↔ s.st r = .rd
  /-- descriptor: lifecycle state, geometry, VMID, measurements, number of RECs -/
  rd : s.st r = .rd → rdOf s' r = rdOf s r ∧ s'.rc r = s.rc r
  /-- translation and RIPAS of every address -/
  view : ∀ a, Rmm.view s' r a = Rmm.view s r a
  /-- contents of its data pages -/
  data : ∀ a rp x, Rmm.view s r a = some (.assigned rp x) → s'.mem x = s.mem x
  /-- the RECs of the realm are the same granules -/
  recs : ∀ x, (s'.st x = .recd ∧ (recOf s' x).rd = r) ↔ (s.st x = .recd ∧ (recOf s x).rd = r)
  /-- with the same contents, running or not -/
  recd : ∀ x, s.st x = .recd → (recOf s x).rd = r → recOf s' x = recOf s x ∧ s'.rc x = s.rc x
  /-- and the same contents of their auxiliary granules -/
  aux : ∀ x y, s.st x = .recd → (recOf s x).rd = r → y ∈ (recOf s x).aux →
    s'.st y = .recAux ∧ s'.mem y = s.mem y

section
variable {P : Plat} {s s' : State} {ret : Ret}
open Demo

theorem addressed_eq (s : State) (op : Op) : addressed s op = op.target s := by cases op <;> rfl

theorem SameRealm.refl (hP : PlatOk P) (hr : Reach P s) (r : Nat) : SameRealm s s r := by
  obtain ⟨ti, di, rl, h⟩ := hr.inv hP
  exact ⟨Iff.rfl, fun _ => ⟨rfl, rfl⟩, fun _ => rfl, fun _ _ _ _ => rfl, fun _ => Iff.rfl,
    fun _ _ _ => ⟨rfl, rfl⟩, fun x y hx _ hy => ⟨(h.recs x hx).auxSt y hy, rfl⟩⟩

theorem SameRealm.trans {s1 s2 s3 : State} {r : Nat} (h1 : SameRealm s1 s2 r) (h2 : SameRealm s2 s3 r) :
    SameRealm s1 s3 r where
  live := h2.live.trans h1.live
  rd h := by
    obtain ⟨a, b⟩ := h1.rd h
    obtain ⟨c, d⟩ := h2.rd (h1.live.mpr h)
    exact ⟨c.trans a, d.trans b⟩
  view a := (h2.view a).trans (h1.view a)
  data a rp x h := (h2.data a rp x (by rw [h1.view]; exact h)).trans (h1.data a rp x h)
  recs x := (h2.recs x).trans (h1.recs x)
  recd x hx hr := by
    obtain ⟨a, b⟩ := h1.recd x hx hr
    have k := (h1.recs x).mpr ⟨hx, hr⟩
    obtain ⟨c, d⟩ := h2.recd x k.1 k.2
    exact ⟨c.trans a, d.trans b⟩
  aux x y hx hr hy := by
    obtain ⟨a, b⟩ := h1.recd x hx hr
    have k := (h1.recs x).mpr ⟨hx, hr⟩
    have m := h1.aux x y hx hr hy
    obtain ⟨c, d⟩ := h2.aux x y k.1 k.2 (by rw [a]; exact hy)
    exact ⟨c, d.trans m.2⟩

/-- C05: one operation addressed to another realm, or to none, leaves everything of realm `r` unchanged. -/
theorem C05_step (hP : PlatOk P) (hr : Reach P s) {op : Op} (e : step P s op = some (s', ret)) {r : Nat}
    (ht : addressed s op ≠ some r) : SameRealm s s' r := by
  obtain ⟨ti, di, rl, h⟩ := hr.inv hP
  rcases step_eff hP h e with ⟨rfl, _⟩ | hh
  · exact SameRealm.refl hP hr r
  rw [addressed_eq] at ht
  have hst := hh.status
  have keep : ∀ {x}, Own s ti di r x → Kept s s' x := fun o => hh.kept h o ht
  have hrec : ∀ x, s.st x = .recd → (recOf s x).rd = r → recOf s' x = recOf s x ∧ s'.rc x = s.rc x ∧ s'.st x = .recd := by
    intro x hx hxr
    have k := keep (.recd hx hxr)
    exact ⟨recOf_congr k.2.1, k.2.2, k.1.trans hx⟩
  refine ⟨hh.rd_iff h ht, ?_, ?_, ?_, ?_, ?_, ?_⟩
  · intro hrd
    have k := keep (.rd rfl hrd)
    exact ⟨rdOf_congr k.2.1, k.2.2⟩
  · intro a
    unfold Rmm.view
    rw [hh.leaf_other hP h e ht a]
  · intro a rp x hv
    obtain ⟨_, _, h3, h4⟩ := view_assigned h hv
    exact (keep (.data h3 (by rw [h4]))).2.1
  · intro x
    constructor
    · rintro ⟨h1, h2⟩
      rcases hh.rec_step h h1 with ⟨k1, k2, _⟩ | k
      · exact ⟨k1, by rw [← k2]; exact h2⟩
      · exfalso
        apply ht
        cases k with
        | create _ k2 _ =>
          rw [k2] at h2; exact congrArg some h2
        | @psciTarget c st k1 k2 k3 k4 k5 k6 =>
          have kk : PsciOk P s c x st s' ret := hh
          show some (recOf s c).rd = some r
          rw [kk.same]
          rw [k6] at h2; exact congrArg some h2
        | @setRipas rd b t _ _ _ k4 =>
          obtain ⟨d, g, m, kk⟩ := hh
          rw [k4] at h2
          show some rd = some r
          rw [← h2]; exact congrArg some kk.own.symm
        | psciCall _ _ _ _ k4 => rw [k4] at h2; exact congrArg some h2
        | enter _ _ _ _ _ _ k4 =>
          rw [k4] at h2
          have hc : ∀ c : Rec, (completeSetRipas c).rd = c.rd := by
            intro c; unfold completeSetRipas; split <;> rfl
          rw [hc] at h2; exact congrArg some h2
        | run _ _ _ k4 | psciReq _ _ _ _ k4 | ipaStateSetErr _ _ _ k4 | systemOff _ _ _ k4 =>
          rw [k4] at h2; exact congrArg some h2
        | ipaStateSet _ _ _ _ _ _ _ _ k4 => rw [k4] at h2; exact congrArg some h2
    · rintro ⟨h1, h2⟩
      obtain ⟨k1, _, k3⟩ := hrec x h1 h2
      exact ⟨k3, by rw [k1]; exact h2⟩
  · intro x hx hxr
    exact ⟨(hrec x hx hxr).1, (hrec x hx hxr).2.1⟩
  · intro x y hx hxr hy
    have hy' := (h.recs x hx).auxSt y hy
    have k := keep (.aux x hy' hx hy hxr)
    exact ⟨k.1.trans hy', k.2.1⟩

/-- C05: any number of operations addressed to other realms or to none. -/
theorem C05_history (hP : PlatOk P) (hr : Reach P s) {r : Nat}
    (run : Run P (fun t op => addressed t op ≠ some r) s s') : SameRealm s s' r := by
  induction run with
  | refl => exact SameRealm.refl hP hr r
  | tail h1 h2 h3 ih => exact ih.trans (C05_step hP (Run.reach hr h1) h3 h2)

/-- A second realm (descriptor 128, root 129). -/
def Demo.mkRealm2 : List Op :=
  delegates 128 2 ++ [.realmCreate (G 128) (G 1) (rparams (G 129) 8)]

/-- Two realms exist and one of them is destroyed. -/
example : ∃ s s' ret, Reach plat s ∧ step plat s (.realmDestroy (G 128)) = some (s', ret) ∧
    (ret.status == 0 && s.st (G 16) == .rd && s.st (G 128) == .rd && s'.st (G 128) == .delegated &&
      (view s (G 16) 0 == some (.assigned .ram (G 22))) &&
      (addressed s (.realmDestroy (G 128)) != some (G 16))) = true :=
  Demo.ex_step (all ++ mkRealm2) _ (fun s s' ret => ret.status == 0 && s.st (G 16) == .rd && s.st (G 128) == .rd &&
    s'.st (G 128) == .delegated && (view s (G 16) 0 == some (.assigned .ram (G 22))) &&
      (addressed s (.realmDestroy (G 128)) != some (G 16))) (by decide +kernel)

end
end Verif.Rmm
