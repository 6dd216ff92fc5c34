import Verif.Rmm.PresRtt
import Verif.Rmm.View

/-!
# The RMM machine: steps and reachable states

`Op` lists everything that can happen, `step` performs it, and `Reach` are the states
reachable from a freshly booted system by any finite sequence of operations.
`step_inv` is the main invariant theorem.
-/

namespace Verif.Rmm

/-- Everything that can happen in the system, one atomic step each.  The first block
are the RMI commands of the host (/repo/runtime/core/handler.c:136-170); then the
realm's own steps on a running REC; then the rest of the system. -/
inductive Op where
  | granuleDelegate (a : Nat)
  | granuleUndelegate (a : Nat)
  | rttCreate (rd rtt a : Nat) (lvl : Int)
  | rttFold (rd a : Nat) (lvl : Int)
  | rttDestroy (rd a : Nat) (lvl : Int)
  | rttMapUnprotected (rd a : Nat) (lvl : Int) (desc : BitVec 64)
  | rttUnmapUnprotected (rd a : Nat) (lvl : Int)
  | rttReadEntry (rd a : Nat) (lvl : Int)
  | dataCreateUnknown (rd data a : Nat)
  | dataCreate (rd data a src flags : Nat)
  | dataDestroy (rd a : Nat)
  | rttInitRipas (rd base top : Nat)
  | rttSetRipas (rd rec_ base top : Nat)
  | realmActivate (rd : Nat)
  | realmCreate (rd params : Nat) (q : RealmParams)
  | realmDestroy (rd : Nat)
  | recCreate (rd rec_ params : Nat) (q : RecParams)
  | recDestroy (rec_ : Nat)
  | recAuxCount (rd : Nat)
  | psciComplete (calling target : Nat) (status : BitVec 64)
  | recEnter (rec_ run : Nat) (accepted reject : Bool)
  | recRun (rec_ : Nat) (stop off : Bool) (regs : Nat → BitVec 64) (pc : BitVec 64)
  | psciRequest (rec_ : Nat)
  | rsiIpaStateSet (rec_ base top : Nat) (v : Ripas) (chg : Bool)
  | psciSystemOff (rec_ : Nat)
  | rsiExtend (rec_ i v : Nat)
  | realmWrite (rec_ a p : Nat)
  | auxWrite (rec_ a p : Nat)
  | hostWrite (a p : Nat)
  | el3Move (a : Nat) (toNs : Bool)

/-- The operation is an RMI command. -/
def Op.rmi : Op → Bool
  | .recRun .. | .psciRequest .. | .rsiIpaStateSet .. | .psciSystemOff .. | .rsiExtend ..
  | .realmWrite .. | .auxWrite .. | .hostWrite .. | .el3Move .. => false
  | _ => true

/-- Perform one operation. -/
def step (P : Plat) (s : State) : Op → Out
  | .granuleDelegate a => granuleDelegate P s a
  | .granuleUndelegate a => granuleUndelegate P s a
  | .rttCreate rd rtt a lvl => rttCreate P s rd rtt a lvl
  | .rttFold rd a lvl => rttFold P s rd a lvl
  | .rttDestroy rd a lvl => rttDestroy P s rd a lvl
  | .rttMapUnprotected rd a lvl desc => rttMapUnprotected P s rd a lvl desc
  | .rttUnmapUnprotected rd a lvl => rttUnmapUnprotected P s rd a lvl
  | .rttReadEntry rd a lvl => rttReadEntry P s rd a lvl
  | .dataCreateUnknown rd data a => dataCreateUnknown P s rd data a
  | .dataCreate rd data a src flags => dataCreate P s rd data a src flags
  | .dataDestroy rd a => dataDestroy P s rd a
  | .rttInitRipas rd base top => rttInitRipas P s rd base top
  | .rttSetRipas rd r base top => rttSetRipas P s rd r base top
  | .realmActivate rd => realmActivate P s rd
  | .realmCreate rd pA q => realmCreate P s rd pA q
  | .realmDestroy rd => realmDestroy P s rd
  | .recCreate rd r pA q => recCreate P s rd r pA q
  | .recDestroy r => recDestroy P s r
  | .recAuxCount rd => recAuxCount P s rd
  | .psciComplete c t st => psciComplete P s c t st
  | .recEnter r run acc rej => recEnter P s r run acc rej
  | .recRun r stop off regs pc => recRun s r stop off regs pc
  | .psciRequest r => psciRequest s r
  | .rsiIpaStateSet r base top v chg => rsiIpaStateSet s r base top v chg
  | .psciSystemOff r => psciSystemOff s r
  | .rsiExtend r i v => rsiExtend s r i v
  | .realmWrite r a p => realmWrite s r a p
  | .auxWrite r a p => auxWrite s r a p
  | .hostWrite a p => hostWrite s a p
  | .el3Move a toNs => el3Move s a toNs

/-- A freshly booted system: nothing delegated, no VMID taken, no granule that RMM
tracks in the Realm address space (EL3 hands its DRAM over as Non-secure). -/
structure Init (P : Plat) (s : State) : Prop where
  st : ∀ a, s.st a = .ns
  rc : ∀ a, s.rc a = 0
  mem : ∀ a, ∃ p, s.mem a = .page p
  pas : ∀ a, P.tracked a = true → s.pas a ≠ .realm
  vmid : ∀ v, s.vmid v = false

/-- Reachable states. -/
inductive Reach (P : Plat) : State → Prop where
  | init {s} : Init P s → Reach P s
  | step {s s' op ret} : Reach P s → step P s op = some (s', ret) → Reach P s'

section
variable {P : Plat} {s : State} {ti : Nat → TabInfo} {di : Nat → Nat × Nat} {rl : Nat → List Nat}

theorem Init.inv (h : Init P s) : Inv P s := by
  have no : ∀ a e, s.st a = e → e ≠ .ns → False := fun a e h1 h2 => h2 (h1.symm.trans (h.st a))
  refine ⟨fun _ => ⟨0, 0, 0⟩, fun _ => (0, 0), fun _ => [], ?_⟩
  constructor
  · intro a ha; exact absurd (h.st a) ha
  · intro a ht; exact ⟨fun hh => absurd (h.st a) hh, fun hh => absurd hh (h.pas a ht)⟩
  · intro a _; exact h.mem a
  · intro a ha; exact (no a _ ha (by decide)).elim
  · intro a ha; exact (no a _ ha (by decide)).elim
  · intro a ha; exact (no a _ ha (by decide)).elim
  · intro a _; exact h.rc a
  · intro a ha; exact (no a _ ha (by decide)).elim
  · intro a ha; exact (no a _ ha (by decide)).elim
  · intro a ha; exact (no a _ ha (by decide)).elim
  · intro a _ ha; exact (no a _ ha (by decide)).elim
  · intro a ha; exact (no a _ ha (by decide)).elim
  · intro a _ _ ha; exact (no a _ ha (by decide)).elim
  · intro a ha; exact (no a _ ha (by decide)).elim
  · intro a _ ha; exact (no a _ ha (by decide)).elim
  · intro v hv; rw [h.vmid v] at hv; cases hv

/-! ## The remaining steps -/

theorem ns_of_pas (h : InvG P s ti di rl) {a : Nat} (ha : s.pas a = .ns) : s.st a = .ns := by
  by_contra hn
  have := (h.gpt a (h.trk a hn)).mp hn
  rw [ha] at this; cases this

theorem realmWrite_spec (h : InvG P s ti di rl) (recA a p : Nat) :
    ∃ s' ret, realmWrite s recA a p = some (s', ret) ∧ ret = {} ∧
      (s' = s ∨ (s.st recA = .recd ∧ s.rc recA = 1 ∧ ∃ x, s' = { s with mem := upd s.mem x (.page p) } ∧
        ((s.st x = .data ∧ di x = ((recOf s recA).rd, a / 4096 * 4096) ∧
            view s (recOf s recA).rd a = some (.assigned .ram x) ∧ a < (rdOf s (recOf s recA).rd).parSize) ∨
         (s.st x = .ns ∧ s.pas x = .ns ∧ (rdOf s (recOf s recA).rd).parSize ≤ a ∧
            ∃ at_, view s (recOf s recA).rd a = some (.assignedNs at_ x))))) := by
  unfold realmWrite
  by_cases h1 : s.st recA = .recd ∧ s.rc recA = 1
  swap
  · rw [if_neg h1]; exact ⟨_, _, rfl, rfl, Or.inl rfl⟩
  rw [if_pos h1, getRec_eq h h1.1]
  dsimp only
  have hrd := (h.recs _ h1.1).rd
  rw [getRd_eq h hrd]
  dsimp only
  cases ht : translate s (rdOf s (recOf s recA).rd) a with
  | none => exact ⟨_, _, rfl, rfl, Or.inl rfl⟩
  | some x =>
    obtain ⟨pa, ns⟩ := x
    dsimp only
    obtain ⟨_, h2⟩ := translate_spec h hrd ht
    by_cases hp : s.pas (pa / 4096 * 4096) = (if ns = true then Pas.ns else Pas.realm)
    · rw [if_pos hp]
      refine ⟨_, _, rfl, rfl, Or.inr ⟨h1.1, h1.2, _, rfl, ?_⟩⟩
      rcases h2 with ⟨rfl, h3, h4, h5, h6⟩ | ⟨rfl, h3, h4⟩
      · exact Or.inl ⟨h4, h5, h6, h3⟩
      · exact Or.inr ⟨ns_of_pas h hp, hp, h3, h4⟩
    · rw [if_neg hp]; exact ⟨_, _, rfl, rfl, Or.inl rfl⟩

theorem realmWrite_inv (h : InvG P s ti di rl) {recA a p s' ret} (e : realmWrite s recA a p = some (s', ret)) :
    InvG P s' ti di rl := by
  obtain ⟨s2, r2, e2, _, h2⟩ := realmWrite_spec h recA a p
  rw [e2] at e; cases e
  rcases h2 with rfl | ⟨_, _, x, rfl, h3 | h3⟩
  · exact h
  · exact inv_page h x p (Or.inr (Or.inl h3.1))
  · exact inv_page h x p (Or.inl h3.1)

theorem auxWrite_spec (h : InvG P s ti di rl) (recA a p : Nat) :
    ∃ s' ret, auxWrite s recA a p = some (s', ret) ∧ ret = {} ∧
      (s' = s ∨ (s.st recA = .recd ∧ s.rc recA = 1 ∧ a ∈ (recOf s recA).aux ∧ s.st a = .recAux ∧
        s' = { s with mem := upd s.mem a (.page p) })) := by
  unfold auxWrite
  by_cases h1 : s.st recA = .recd ∧ s.rc recA = 1
  swap
  · rw [if_neg h1]; exact ⟨_, _, rfl, rfl, Or.inl rfl⟩
  rw [if_pos h1, getRec_eq h h1.1]
  dsimp only
  by_cases h2 : a ∈ (recOf s recA).aux
  · rw [if_pos h2]
    exact ⟨_, _, rfl, rfl, Or.inr ⟨h1.1, h1.2, h2, (h.recs _ h1.1).auxSt a h2, rfl⟩⟩
  · rw [if_neg h2]; exact ⟨_, _, rfl, rfl, Or.inl rfl⟩

theorem auxWrite_inv (h : InvG P s ti di rl) {recA a p s' ret} (e : auxWrite s recA a p = some (s', ret)) :
    InvG P s' ti di rl := by
  obtain ⟨s2, r2, e2, _, h2⟩ := auxWrite_spec h recA a p
  rw [e2] at e; cases e
  rcases h2 with rfl | ⟨_, _, _, h3, rfl⟩
  · exact h
  · exact inv_page h a p (Or.inr (Or.inr h3))

theorem hostWrite_spec (h : InvG P s ti di rl) (a p : Nat) :
    ∃ s' ret, hostWrite s a p = some (s', ret) ∧ ret = {} ∧
      (s' = s ∨ (s.st a = .ns ∧ s.pas a = .ns ∧ s' = { s with mem := upd s.mem a (.page p) })) := by
  unfold hostWrite
  by_cases h1 : s.pas a = .ns
  · rw [if_pos h1]; exact ⟨_, _, rfl, rfl, Or.inr ⟨ns_of_pas h h1, h1, rfl⟩⟩
  · rw [if_neg h1]; exact ⟨_, _, rfl, rfl, Or.inl rfl⟩

theorem hostWrite_inv (h : InvG P s ti di rl) {a p s' ret} (e : hostWrite s a p = some (s', ret)) :
    InvG P s' ti di rl := by
  obtain ⟨s2, r2, e2, _, h2⟩ := hostWrite_spec h a p
  rw [e2] at e; cases e
  rcases h2 with rfl | ⟨h3, _, rfl⟩
  · exact h
  · exact inv_page h a p (Or.inl h3)

theorem el3Move_inv (h : InvG P s ti di rl) {a toNs s' ret} (e : el3Move s a toNs = some (s', ret)) :
    InvG P s' ti di rl := by
  unfold el3Move at e
  by_cases h1 : s.pas a = .realm
  · rw [if_pos h1] at e; cases e; exact h
  · rw [if_neg h1] at e; cases e
    apply Soft.inv h
    refine ⟨rfl, rfl, ?_, ?_, ?_, fun _ _ => rfl, ?_, ?_, ?_⟩
    · intro b _
      show upd s.pas a _ b = .realm ↔ _
      by_cases hb : b = a
      · subst hb
        rw [upd_same]
        cases toNs <;> simp [h1]
      · rw [upd_ne _ _ _ hb]
    · intro b hb
      rcases hb with hb | hb | hb
      · exact h.nsPage b hb
      · exact h.dataPage b hb
      · exact h.auxPage b hb
    · exact h.delPage
    · intro g hg; exact soft_tab_same h hg rfl
    · intro b hb; exact soft_rd_same h hb rfl
    · intro b hb; exact soft_rec_same h hb rfl rfl

/-! ## Assertions -/

/-- The operations that can reach a failing assertion, in the states where they do. -/
def Op.asserts (P : Plat) (s : State) : Op → Prop
  /- an auxiliary granule other than the first cannot be taken: the ones before it are
  unlocked twice (rec.c:289-292) -/
  | .recCreate _ _ _ q => P.asserts = true ∧ ∃ tk a rest, q.auxList = tk ++ a :: rest ∧ tk ≠ [] ∧
      ∀ x ∈ tk, P.tracked x = true ∧ s.st x = .delegated
  /- the level is above the starting level of the realm -/
  | .rttMapUnprotected rd _ lvl _ => s.st rd = .rd ∧ lvl < 3 - ((rdOf s rd).d0 : Int)
  | .rttUnmapUnprotected rd _ lvl => s.st rd = .rd ∧ lvl < 3 - ((rdOf s rd).d0 : Int)
  /- the pending request was recognised by the low 32 bits of the function identifier only -/
  | .psciComplete c _ _ => s.st c = .recd ∧ (recOf s c).psciPending = true ∧ s.rc c = 0 ∧
      isCpuOn ((recOf s c).regs 0) = false ∧ isAffinityInfo ((recOf s c).regs 0) = false
  | _ => False

/-- Any other operation completes. -/
theorem step_some (hP : PlatOk P) (h : InvG P s ti di rl) (op : Op) (ha : ¬ op.asserts P s) :
    ∃ s' ret, step P s op = some (s', ret) := by
  cases op with
  | granuleDelegate a => obtain ⟨s', ret, e, _⟩ := granuleDelegate_spec (P := P) (s := s) a; exact ⟨s', ret, e⟩
  | granuleUndelegate a => obtain ⟨s', ret, e, _⟩ := granuleUndelegate_spec h a; exact ⟨s', ret, e⟩
  | rttCreate rd rtt a lvl => obtain ⟨s', ret, e, _⟩ := rttCreate_spec h rd rtt a lvl; exact ⟨s', ret, e⟩
  | rttFold rd a lvl => obtain ⟨s', ret, e, _⟩ := rttFold_spec h rd a lvl; exact ⟨s', ret, e⟩
  | rttDestroy rd a lvl => obtain ⟨s', ret, e, _⟩ := rttDestroy_spec h rd a lvl; exact ⟨s', ret, e⟩
  | rttMapUnprotected rd a lvl desc =>
    obtain ⟨s', ret, e, _⟩ := rttMapUnprotected_spec h rd a lvl desc (fun hr => by
      by_contra hh; exact ha ⟨hr, by omega⟩)
    exact ⟨s', ret, e⟩
  | rttUnmapUnprotected rd a lvl =>
    obtain ⟨s', ret, e, _⟩ := rttUnmapUnprotected_spec h rd a lvl (fun hr => by
      by_contra hh; exact ha ⟨hr, by omega⟩)
    exact ⟨s', ret, e⟩
  | rttReadEntry rd a lvl => obtain ⟨ret, e, _⟩ := rttReadEntry_spec h rd a lvl; exact ⟨s, ret, e⟩
  | dataCreateUnknown rd data a => obtain ⟨s', ret, e, _⟩ := dataCreateUnknown_spec h rd data a; exact ⟨s', ret, e⟩
  | dataCreate rd data a src flags =>
    obtain ⟨s', ret, e, _⟩ := dataCreate_spec h rd data a src flags; exact ⟨s', ret, e⟩
  | dataDestroy rd a => obtain ⟨s', ret, e, _⟩ := dataDestroy_spec h rd a; exact ⟨s', ret, e⟩
  | rttInitRipas rd base top => obtain ⟨s', ret, e, _⟩ := rttInitRipas_spec h rd base top; exact ⟨s', ret, e⟩
  | rttSetRipas rd r base top => obtain ⟨s', ret, e, _⟩ := rttSetRipas_spec h rd r base top; exact ⟨s', ret, e⟩
  | realmActivate rd => obtain ⟨s', ret, e, _⟩ := realmActivate_spec h rd; exact ⟨s', ret, e⟩
  | realmCreate rd pA q => obtain ⟨s', ret, e, _⟩ := realmCreate_spec hP rd pA q; exact ⟨s', ret, e⟩
  | realmDestroy rd => obtain ⟨s', ret, e, _⟩ := realmDestroy_spec h rd; exact ⟨s', ret, e⟩
  | recCreate rd r pA q =>
    rcases recCreate_spec h rd r pA q with ⟨_, h1⟩ | ⟨s', ret, e, _⟩
    · exact absurd h1 ha
    · exact ⟨s', ret, e⟩
  | recDestroy r => obtain ⟨s', ret, e, _⟩ := recDestroy_spec h r; exact ⟨s', ret, e⟩
  | recAuxCount rd =>
    show ∃ s' ret, recAuxCount P s rd = some (s', ret)
    unfold recAuxCount
    by_cases h1 : lk P s rd .rd = true
    · rw [if_pos h1, getRd_eq h ((lk_iff ..).mp h1).2]; exact ⟨_, _, rfl⟩
    · rw [if_neg h1]; exact ⟨_, _, rfl⟩
  | psciComplete c t st =>
    rcases psciComplete_spec h c t st with ⟨_, h1⟩ | ⟨s', ret, e, _⟩
    · exact absurd h1 ha
    · exact ⟨s', ret, e⟩
  | recEnter r run acc rej => obtain ⟨s', ret, e, _⟩ := recEnter_spec h r run acc rej; exact ⟨s', ret, e⟩
  | recRun r stop off regs pc => obtain ⟨s', ret, e, _⟩ := recRun_spec h r stop off regs pc; exact ⟨s', ret, e⟩
  | psciRequest r => obtain ⟨s', ret, e, _⟩ := psciRequest_spec h r; exact ⟨s', ret, e⟩
  | rsiIpaStateSet r base top v chg =>
    obtain ⟨s', ret, e, _⟩ := rsiIpaStateSet_spec h r base top v chg; exact ⟨s', ret, e⟩
  | psciSystemOff r => obtain ⟨s', ret, e, _⟩ := psciSystemOff_spec h r; exact ⟨s', ret, e⟩
  | rsiExtend r i v => obtain ⟨s', ret, e, _⟩ := rsiExtend_spec h r i v; exact ⟨s', ret, e⟩
  | realmWrite r a p => obtain ⟨s', ret, e, _⟩ := realmWrite_spec h r a p; exact ⟨s', ret, e⟩
  | auxWrite r a p => obtain ⟨s', ret, e, _⟩ := auxWrite_spec h r a p; exact ⟨s', ret, e⟩
  | hostWrite a p => obtain ⟨s', ret, e, _⟩ := hostWrite_spec h a p; exact ⟨s', ret, e⟩
  | el3Move a toNs =>
    show ∃ s' ret, el3Move s a toNs = some (s', ret)
    unfold el3Move
    split <;> exact ⟨_, _, rfl⟩

/-! ## Effects -/

/-- Above the starting level the unprotected mapping commands fail an assertion or
return an error. -/
theorem rttMapUnprotected_above (h : InvG P s ti di rl) {rdA a : Nat} {lvl : Int} {hd : BitVec 64}
    (hrd : s.st rdA = .rd) (hlv : lvl < 3 - ((rdOf s rdA).d0 : Int)) {s' : State} {ret : Ret}
    (e : rttMapUnprotected P s rdA a lvl hd = some (s', ret)) : s' = s ∧ ret.status ≠ 0 := by
  have hw : ∀ x, walk s (rdOf s rdA) x (dOf lvl) = none := by
    intro x
    unfold walk
    rw [if_neg]
    intro hh
    have := hh.1
    unfold dOf at this
    omega
  unfold rttMapUnprotected at e
  rw [getRd_eq h hrd] at e
  dsimp only at e
  simp only [hw] at e
  repeat' split at e
  all_goals first
    | (cases e; done)
    | (simp only [Option.some.injEq, Prod.mk.injEq] at e; obtain ⟨rfl, rfl⟩ := e; exact ⟨rfl, by decide⟩)

theorem rttUnmapUnprotected_above (h : InvG P s ti di rl) {rdA a : Nat} {lvl : Int}
    (hrd : s.st rdA = .rd) (hlv : lvl < 3 - ((rdOf s rdA).d0 : Int)) {s' : State} {ret : Ret}
    (e : rttUnmapUnprotected P s rdA a lvl = some (s', ret)) : s' = s ∧ ret.status ≠ 0 := by
  have hw : ∀ x, walk s (rdOf s rdA) x (dOf lvl) = none := by
    intro x
    unfold walk
    rw [if_neg]
    intro hh
    have := hh.1
    unfold dOf at this
    omega
  unfold rttUnmapUnprotected at e
  rw [getRd_eq h hrd] at e
  dsimp only at e
  simp only [hw] at e
  repeat' split at e
  all_goals first
    | (cases e; done)
    | (simp only [Option.some.injEq, Prod.mk.injEq] at e; obtain ⟨rfl, rfl⟩ := e; exact ⟨rfl, by decide⟩)

end

end Verif.Rmm
