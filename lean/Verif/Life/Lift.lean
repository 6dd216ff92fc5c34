import Verif.Life.Inv

/-!
# The programs of `Verif.Atom` keep the invariant
-/

namespace Verif.Life

open Rmm
open Atom (MInv PcOk Keeps isWalk foot early first StepOk Lin Taken rdA)

/-- A command that creates has done what it has to do; the page with its parameters was read
before. -/
def Made (P : Plat) (s : State) (s' : State) (ret : Ret) : Op → Prop
  | .realmCreate rd _ q => RealmCreateOk P s rd q s' ret
  | .recCreate rd r _ q => RecCreateOk P s rd r q s' ret
  | _ => False

/-- What the command needs is not there. -/
def Refused (P : Plat) (s : State) : Op → Prop
  | .realmCreate rd _ q => ∀ s' ret, ¬ RealmCreateOk P s rd q s' ret
  | .recCreate rd r _ q => ∀ s' ret, ¬ RecCreateOk P s rd r q s' ret
  | .dataCreate _ _ _ src _ => s.st src ≠ .ns
  | _ => False

/-- What a command did at its point: the atomic operation; or nothing, and it failed, because
what it needs was not there or because another CPU was inside one of the four commands
(`b`). -/
def Done (P : Plat) (s : State) (op : Op) (s' : State) (ret : Ret) (b : Bool) : Prop :=
  step P s op = some (s', ret) ∨ Made P s s' ret op ∨
    (s' = s ∧ ret.status ≠ 0 ∧ (b = true ∨ Refused P s op))

/-- The points among the recorded events. -/
def points (ev : List Ev) : List (Op × Ret) :=
  ev.filterMap fun | .point _ op ret => some (op, ret) | .exit .. => none

/-- What a step did in the memory without the changes. -/
def EvOk (P : Plat) (s s' : State) (b : Bool) (ev : List Ev) : Prop :=
  (points ev = [] ∧ s' = s) ∨ ∃ op ret, points ev = [(op, ret)] ∧ Done P s op s' ret b

/-- What the theorem says of a step. -/
def LOut (P : Plat) (n : Nat) (m : M) (s : State) (i : Nat) : Res → Prop
  | .blocked => True
  | .fail op => step P s op = none ∨ ∃ rd recA pA q todo done,
      op = .recCreate rd recA pA q ∧ m.pc i = .nTake rd recA pA q todo done ∧ done ≠ []
  | .ok m' ev => ∃ s' T', LInv P n m' s' T' ∧ EvOk P s s' (others n m i) ev

section
variable {P : Plat} {s s' : State} {ret : Ret} {ti : Nat → TabInfo} {di : Nat → Nat × Nat} {rl : Nat → List Nat}

theorem eff_vmid {op : Op} (e : Eff P s ti di s' ret op) (hl : isLife op = false) : s'.vmid = s.vmid := by
  cases op with
  | granuleDelegate a => obtain ⟨_, _, _, _, rfl⟩ := e; rfl
  | granuleUndelegate a => obtain ⟨_, _, _, rfl⟩ := e; rfl
  | rttCreate rd rtt a lvl => obtain ⟨d, g, en, _, k⟩ := e; rw [k.st]; rfl
  | rttFold rd a lvl => obtain ⟨d, g, c, en, _, k⟩ := e; rw [k.st]; rfl
  | rttDestroy rd a lvl => obtain ⟨d, g, c, _, k⟩ := e; rw [k.st]; rfl
  | rttMapUnprotected rd a lvl desc => obtain ⟨d, g, _, k⟩ := e; rw [k.st]
  | rttUnmapUnprotected rd a lvl => obtain ⟨d, g, _, k⟩ := e; rw [k.st]
  | rttReadEntry rd a lvl => rw [e.1]
  | dataCreateUnknown rd data a => obtain ⟨g, rp, k, _, rfl⟩ := e; rfl
  | dataCreate rd data a src flags => obtain ⟨g, rp, p, k, _, _, _, _, _, _, rfl⟩ := e; rfl
  | dataDestroy rd a => obtain ⟨g, pa, rp, k⟩ := e; rw [k.st]
  | rttInitRipas rd base top => obtain ⟨d, g, m, k⟩ := e; rw [k.st]
  | rttSetRipas rd r base top => obtain ⟨d, g, m, k⟩ := e; rw [k.st]
  | realmActivate rd => have k : ActivateOk P s rd s' ret := e; rw [k.st]
  | realmCreate | realmDestroy | recCreate | recDestroy => cases hl
  | recAuxCount rd => rw [e.1]
  | psciComplete c t st => have k : PsciOk P s c t st s' ret := e; rw [k.st]
  | recEnter r run acc rej => rw [e.2.st]
  | recRun r stop off regs pc => obtain ⟨_, _, _, rfl⟩ := e; rfl
  | psciRequest r => obtain ⟨_, _, _, _, rfl⟩ := e; rfl
  | rsiIpaStateSet r base top v chg => obtain ⟨_, _, _, rfl | ⟨_, _, _, _, _, rfl⟩⟩ := e <;> rfl
  | psciSystemOff r => obtain ⟨_, _, _, rfl⟩ := e; rfl
  | rsiExtend r i v => obtain ⟨_, _, _, _, _, rfl⟩ := e; rfl
  | realmWrite r a p => obtain ⟨_, _, _, x, rfl, _⟩ := e; rfl
  | auxWrite r a p => obtain ⟨_, _, _, _, _, rfl⟩ := e; rfl
  | hostWrite a p => obtain ⟨_, _, _, rfl⟩ := e; rfl
  | el3Move a t => obtain ⟨_, _, rfl⟩ := e; rfl

theorem eff_rc {op : Op} (e : Eff P s ti di s' ret op) (hw : isWalk op = false) (hl : isLife op = false) {x : Nat}
    (hx : s.st x ≠ .recd) : s'.rc x = s.rc x := by
  have nr : ∀ {r}, s.st r = .recd → x ≠ r := by rintro r h rfl; exact hx h
  cases op with
  | granuleDelegate a => obtain ⟨_, _, _, _, rfl⟩ := e; rfl
  | granuleUndelegate a => obtain ⟨_, _, _, rfl⟩ := e; rfl
  | rttCreate | rttFold | rttDestroy | rttMapUnprotected | rttUnmapUnprotected | rttReadEntry
  | dataCreateUnknown | dataCreate | dataDestroy | rttInitRipas | rttSetRipas => cases hw
  | realmActivate rd => have k : ActivateOk P s rd s' ret := e; rw [k.st]
  | realmCreate | realmDestroy | recCreate | recDestroy => cases hl
  | recAuxCount rd => rw [e.1]
  | psciComplete c t st => have k : PsciOk P s c t st s' ret := e; rw [k.st]
  | recEnter r run acc rej =>
    have k := e.2
    rw [k.st]; exact upd_ne _ _ _ (nr k.recd.2)
  | recRun r stop off regs pc => obtain ⟨h0, _, _, rfl⟩ := e; exact upd_ne _ _ _ (nr h0)
  | psciRequest r => obtain ⟨h0, _, _, _, rfl⟩ := e; exact upd_ne _ _ _ (nr h0)
  | rsiIpaStateSet r base top v chg =>
    obtain ⟨h0, _, _, rfl | ⟨_, _, _, _, _, rfl⟩⟩ := e
    · rfl
    · exact upd_ne _ _ _ (nr h0)
  | psciSystemOff r => obtain ⟨h0, _, _, rfl⟩ := e; exact upd_ne _ _ _ (nr h0)
  | rsiExtend r i v => obtain ⟨_, _, _, _, _, rfl⟩ := e; rfl
  | realmWrite r a p => obtain ⟨_, _, _, x, rfl, _⟩ := e; rfl
  | auxWrite r a p => obtain ⟨_, _, _, _, _, rfl⟩ := e; rfl
  | hostWrite a p => obtain ⟨_, _, _, rfl⟩ := e; rfl
  | el3Move a t => obtain ⟨_, _, rfl⟩ := e; rfl

end

section
variable {P : Plat} {n : Nat} {m : M} {s : State} {T : Ov}

/-- The operation a program ends with is not one of the four. -/
theorem go_op {am am' : Atom.M} {ti : Nat → TabInfo} {i : Nat} (k : PcOk P am.s ti (am.pc i)) {op : Op} {ret : Ret}
    (e : Atom.go P n am i = .ok am' (some (op, ret))) : isWalk op = true := by
  unfold Atom.go at e
  cases hp : am.pc i with
  | idle => rw [hp] at e; cases e
  | locking op' todo done =>
    rw [hp] at e k
    have hw := k.1
    cases todo with
    | cons p todo =>
      obtain ⟨x, ex⟩ := p
      dsimp only at e
      repeat' split at e
      all_goals first
        | (cases e; exact hw)
        | cases e
    | nil =>
      dsimp only at e
      repeat' split at e
      all_goals first
        | (cases e; exact hw)
        | cases e
  | checked op' c =>
    rw [hp] at e
    dsimp only at e
    repeat' split at e
    all_goals cases e
  | root op' c =>
    rw [hp] at e
    dsimp only at e
    repeat' split at e
    all_goals cases e
  | walking op' c d g =>
    rw [hp] at e k
    have hw := k.1.walk
    dsimp only at e
    repeat' split at e
    all_goals first
      | (cases e; exact hw)
      | cases e

/-- A step of a program of `Verif.Atom` keeps the invariant. -/
theorem lift_out (hP : PlatOk P) (I : LInv P n m s T) {i : Nat} (hi : i < n) {p : Atom.Pc} (hp : m.pc i = .walk p)
    {ra rb : Atom.Res}
    (h : (∃ op x, ra = m.atom.fin i op m.atom.s errInput ∧ T.g x ≠ none) ∨
      (Sim T i ra rb ∧ ∀ a' b' d d', ra = .ok a' d → rb = .ok b' d' → Moved n T s m i p b'))
    (hS : StepOk P n (low m s) rb) (hop : ∀ b' op ret, rb = .ok b' (some (op, ret)) → isLife op = false) :
    LOut P n m s i (lift m i ra) := by
  have htr : tr (m.pc i) = [] := by rw [hp]; rfl
  have hvm : vmOf (m.pc i) = none := by rw [hp]; rfl
  have hput : putOf (m.pc i) = none := by rw [hp]; rfl
  rcases h with ⟨op, x, rfl, hx⟩ | ⟨hsim, hmv⟩
  · refine ⟨s, T, ?_, Or.inr ⟨op, errInput, rfl, Or.inr (Or.inr ⟨rfl, by decide, Or.inl ?_⟩)⟩⟩
    · have := I.idle hi htr hvm hput
      simp only [upd_same]
      exact this
    · exact I.busy hx (fun e => by rw [htr]; simp)
  rcases hsim with rfl | ⟨op, rfl, rfl⟩ | ⟨a', b', d, rfl, rfl, hab, hpc⟩
  · trivial
  · exact Or.inl hS
  have mv := hmv a' b' d d rfl rfl
  obtain ⟨ti, di, rl, hI, hpc0, hd0⟩ := I.low
  change InvG P s ti di rl at hI
  -- realm descriptors and VMIDs stay
  have hkeep : (∀ y, s.st y = .rd → b'.s.st y = .rd) ∧ b'.s.vmid = s.vmid ∧
      ∀ y, b'.s.st y = .rd → s.st y = .rd ∧ b'.s.rc y = s.rc y := by
    cases d with
    | none =>
      have : b'.s = s := hS.1
      rw [this]; exact ⟨fun _ h => h, rfl, fun _ h => ⟨h, rfl⟩⟩
    | some x =>
      obtain ⟨op, ret⟩ := x
      have hlife := hop b' op ret rfl
      rcases hS.1 with h1 | ⟨_, h1, _⟩
      · rcases step_eff hP hI h1 with ⟨h2, _⟩ | k
        · rw [h2]; exact ⟨fun _ h => h, rfl, fun _ h => ⟨h, rfl⟩⟩
        · refine ⟨fun y hy => Rmm.Eff.rd_stays hI k hy (by rintro rfl; cases hlife), eff_vmid k hlife, fun y hy => ?_⟩
          rcases k.rd_step hI hy with ⟨h2, _, h3⟩ | h2
          · exact ⟨h2, h3⟩
          · cases h2 with
            | create | recCreate | recDestroy => cases hlife
            | data h0 _ _ _ h3 | init h0 _ _ _ h3 | activate h0 _ _ h3
            | systemOff h0 _ _ _ _ h3 | extend h0 _ _ _ _ _ _ h3 => exact ⟨h0, h3⟩
      · have : b'.s = s := h1
        rw [this]; exact ⟨fun _ h => h, rfl, fun _ h => ⟨h, rfl⟩⟩
  have hM : MInv P n (low ⟨a'.s, upd m.pc i (.walk (a'.pc i))⟩ b'.s) := by
    have h1 : low ⟨a'.s, upd m.pc i (.walk (a'.pc i))⟩ b'.s = b' := by
      have : (fun j => base (upd m.pc i (.walk (a'.pc i)) j)) = b'.pc := by
        funext j
        by_cases hj : j = i
        · subst hj; rw [upd_same]; exact hpc
        · rw [upd_ne _ _ _ hj, mv.pcs j hj]
      unfold low
      dsimp only
      rw [this]
    rw [h1]
    cases d with
    | none => exact hS.2
    | some x => exact hS.2
  have hL : LInv P n ⟨a'.s, upd m.pc i (.walk (a'.pc i))⟩ b'.s T := by
    refine I.step hi hab hM ?_ (.refl I.trk hi (by rw [htr]; rfl) (by rw [hvm]; rfl) (by rw [hput]; rfl)) ?_ ?_ ?_ ?_ ?_
      trivial
    · refine ⟨fun {a e x} hg => ⟨mv.taken a (by rw [hg]; simp), (I.sep.g hg).2⟩, fun {a} ha => ?_, fun {v} hv => ?_,
        fun {a} ha => ?_⟩
      · exact hkeep.1 a (I.sep.rc ha)
      · rw [hkeep.2.1]; exact I.sep.vm hv
      · rw [(hkeep.2.2 a ha).2]; exact I.sep.cap (hkeep.2.2 a ha).1
    · intro x hx
      have hx : x ∈ Atom.held (b'.pc i) := by rw [← hpc]; exact hx
      exact (mv.new x hx).imp id (fun h => h.1)
    · intro x hx e c hg
      have hx : x ∈ Atom.held (b'.pc i) := by rw [← hpc]; exact hx
      rcases mv.new x hx with h1 | h1
      · have := I.mine i hi x h1 hg
        rw [htr] at this; cases this
      · rw [h1.2.1] at hg; cases hg
    · intro j hj _ x hx e he; cases he
    · intro j hj hne x hx hst
      refine mv.keeps x (fun h1 => I.excl j hj i hi hne x hx h1) ?_ hst
      rw [Bool.eq_false_iff]
      intro h1
      exact (free_iff ..).mp h1 j hj hx
    · intro j hj hne rd r k acc hpj
      have o := I.ok j hj
      have hex := I.excl j hj i hi hne
      rw [hpj] at o hex
      obtain ⟨o1, o2, o3, o4, o5, o6, o7, o8⟩ := o
      have far : 0 < k → near p ≠ some rd := by
        intro hk hn
        cases p with
        | checked op c =>
          have h1 : rdA op = rd := Option.some.inj hn
          have h2 := hpc0 i hi
          have h3 : (low m s).pc i = .checked op c := by simp [low, base, hp]
          rw [h3] at h2
          refine hex rd (by simp [held]) ?_
          rw [hp]
          have := List.mem_map_of_mem (f := (·.1)) (Atom.rd_first op h2.1.walk)
          rw [h1] at this
          exact this
        | root op c =>
          exact (o8 i hi (Ne.symm hne)).2 hk op c hp (Option.some.inj hn)
        | _ => cases hn
      refine ⟨o5, fun l hl => ⟨?_, ?_⟩, fun hk op c hh => ?_⟩
      · intro hx
        have hx : r.root + 4096 * l ∈ Atom.held (b'.pc i) := by rw [← hpc]; exact hx
        rcases mv.new _ hx with h1 | ⟨_, _, h1⟩
        · exact (o8 i hi (Ne.symm hne)).1 l hl h1
        · exact far (by omega) (h1 rd l o2 (by rw [o3]; omega) (by rw [o3]))
      · refine mv.roots _ ⟨rd, o2, l, by rw [o3]; omega, by rw [o3]⟩ ?_
        exact (o8 i hi (Ne.symm hne)).1 l hl
      · have h1 : b'.pc i = .root op c := by rw [← hpc]; exact Pc.walk.inj hh
        have h2 := mv.root op c h1
        intro h3
        rw [h3] at h2
        exact far hk h2
  cases d with
  | none => exact ⟨b'.s, T, hL, Or.inl ⟨rfl, hS.1⟩⟩
  | some x =>
    obtain ⟨op, ret⟩ := x
    refine ⟨b'.s, T, hL, Or.inr ⟨op, ret, rfl, ?_⟩⟩
    rcases hS.1 with h1 | ⟨h1, h2, h3, _⟩
    · exact Or.inl h1
    · refine Or.inr (Or.inr ⟨h2, h3, Or.inr ?_⟩)
      cases op with
      | dataCreate rd data a src flags => exact h1
      | _ => exact h1.elim

theorem go_walk (hP : PlatOk P) (I : LInv P n m s T) {i : Nat} (hi : i < n) {p : Atom.Pc} (hp : m.pc i = .walk p) :
    LOut P n m s i (lift m i (Atom.go P n m.atom i)) := by
  refine lift_out hP I hi hp (go_sim I.low I.sep I.mem (fun x hx => I.free hx) ?_ hi hp) (Atom.go_ok hP I.low hi) ?_
  · intro x hx
    cases hg : T.g x with
    | none => rfl
    | some y =>
      obtain ⟨e, c⟩ := y
      have := I.mine i hi x hx hg
      rw [hp] at this; cases this
  · intro b' op ret e
    obtain ⟨ti, di, rl, _, hpc, _⟩ := I.low
    have := go_op (hpc i hi) e
    cases op <;> first | rfl | cases this

theorem isLife_walk {op : Op} (h : isWalk op = true) : isLife op = false := by
  cases op <;> first | rfl | cases h

/-- GRANULE_UNDELEGATE of a granule that a command under way has taken. -/
theorem undel_ov (S : Sep T s) {a : Nat} (h : T.g a ≠ none) :
    Rmm.step P (ov T s) (.granuleUndelegate a) = some (ov T s, errInput) := by
  cases hn : T.g a with
  | none => exact absurd hn h
  | some x =>
    obtain ⟨e, c⟩ := x
    have he : lk P (ov T s) a .delegated = false := by
      obtain ⟨_, h2⟩ := S.g hn
      simp only [lk, ov, ovSt, hn]
      rcases h2 with rfl | rfl | rfl | rfl <;> simp
    simp only [Rmm.step, granuleUndelegate, he]
    rfl

theorem early_ov (S : Sep T s) (op : Op) : early P (ov T s) op = early P s op := by
  cases op <;> simp only [early, S.lkNs]

theorem start_walk (hP : PlatOk P) (I : LInv P n m s T) {i : Nat} (hi : i < n) (hp : m.pc i = .walk .idle) {op : Op}
    (hl : isLife op = false) : LOut P n m s i (lift m i (Atom.start P n m.atom i op)) := by
  have pa : m.atom.pc i = .idle := by simp [M.atom, shown, hp]
  have pl : (low m s).pc i = .idle := by simp [low, base, hp]
  have sa : m.atom.s = ov T s := I.mem
  obtain ⟨ti, di, rl, hI, hpc0, hd0⟩ := I.low
  change InvG P s ti di rl at hI
  have st4 : ∀ x, T.g x ≠ none → s.st x = .delegated := by
    intro x hx
    cases hg : T.g x with
    | none => exact absurd hg hx
    | some y => exact (I.sep.g hg).1
  have still : ∀ q, Atom.held q = [] → (∀ op c, q ≠ .root op c) →
      Moved n T s m i .idle ⟨s, upd (low m s).pc i q⟩ := by
    intro q h1 h2
    refine ⟨fun j hj => upd_ne _ _ _ hj, ?_, ?_, fun x _ _ _ => .refl _ _, fun _ _ _ => rfl, fun x hx => st4 x hx⟩
    · dsimp only; rw [upd_same, h1]; exact fun x hx => by cases hx
    · dsimp only; rw [upd_same]; exact fun op c hh => absurd hh (h2 op c)
  by_cases hw : isWalk op = true
  · refine lift_out hP I hi hp (rb := Atom.start P n (low m s) i op) ?_ (Atom.start_ok hP I.low hi op) ?_
    · right
      unfold Atom.start
      rw [pa, pl]
      dsimp only
      rw [if_pos hw, if_pos hw, show early P m.atom.s op = early P s op by rw [sa]; exact early_ov I.sep op,
        show early P (low m s).s op = early P s op from rfl]
      cases early P s op with
      | some ret =>
        refine ⟨Or.inr (Or.inr ⟨_, _, _, rfl, rfl, sa, ?_⟩), ?_⟩
        · dsimp only; rw [upd_same, upd_same]
        · intro a' b' d d' _ e; cases e
          exact still .idle rfl (fun _ _ h => by cases h)
      | none =>
        refine ⟨Or.inr (Or.inr ⟨_, _, _, rfl, rfl, sa, ?_⟩), ?_⟩
        · dsimp only; rw [upd_same, upd_same]
        · intro a' b' d d' _ e; cases e
          exact still _ rfl (fun _ _ h => by cases h)
    · intro b' op' ret e
      unfold Atom.start at e
      rw [pl] at e
      dsimp only at e
      rw [if_pos hw] at e
      split at e <;> cases e
      exact hl
  -- single operations
  unfold Atom.start
  rw [pa]
  dsimp only
  rw [if_neg hw, sa]
  have hw' : isWalk op = false := by simpa using hw
  by_cases hf : (foot (ov T s) op).all (Atom.free n m.atom) = true
  swap
  · rw [if_neg hf]; trivial
  rw [if_pos hf]
  rw [List.all_eq_true] at hf
  have hf' : ∀ x ∈ foot (ov T s) op, free n m x = true := fun x hx => by rw [← free_atom]; exact hf x hx
  have spur : ∀ {y}, Rmm.step P (ov T s) op = some (ov T s, errInput) → T.g y ≠ none →
      LOut P n m s i (lift m i (match Rmm.step P (ov T s) op with
        | none => .fail op
        | some (s', ret) => m.atom.fin i op s' ret)) := by
    intro y h1 h2
    rw [h1]
    refine lift_out hP I hi hp (rb := .blocked) (Or.inl ⟨op, y, by rw [sa], h2⟩) trivial (fun _ _ _ e => by cases e)
  by_cases hu : ∃ a, op = .granuleUndelegate a ∧ T.g a ≠ none
  · obtain ⟨a, rfl, ha⟩ := hu
    exact spur (undel_ov I.sep ha) ha
  rcases step_ov (P := P) I.sep hI hw' hl (fun x hx => I.free (hf' x hx)) with h1 | ⟨h1, a, _, h2⟩
  swap
  · exact spur h1 h2
  rw [h1]
  cases hs : Rmm.step P s op with
  | none => exact Or.inl hs
  | some y =>
    obtain ⟨s', ret⟩ := y
    have hfoot : ∀ {ti di}, Eff P s ti di s' ret op → foot (ov T s) op = foot s op := by
      intro ti di k
      cases op with
      | psciSystemOff r =>
        obtain ⟨h0, _⟩ := k
        simp only [foot, recOf_ov (I.sep.none (a := r) (by rw [h0]; simp))]
      | rsiExtend r i v =>
        obtain ⟨h0, _⟩ := k
        simp only [foot, recOf_ov (I.sep.none (a := r) (by rw [h0]; simp))]
      | realmCreate | realmDestroy | recCreate | recDestroy => cases hl
      | _ => rfl
    have keeps : ∀ x, (s.st x = .rd ∨ s.st x = .delegated ∨ s.st x = .recd ∨ s.st x = .rtt) →
        x ∉ foot (ov T s) op → Keeps s s' x := by
      intro x hx hxf
      rcases step_eff hP hI hs with ⟨rfl, _⟩ | k
      · exact .refl _ _
      · rw [hfoot k] at hxf
        exact Atom.Eff.keeps k hw' hx hxf
    refine lift_out hP I hi hp (rb := (low m s).fin i op s' ret)
      (Or.inr ⟨Or.inr (Or.inr ⟨_, _, _, rfl, rfl, rfl, by dsimp only; rw [upd_same, upd_same]⟩), ?_⟩) ?_ ?_
    · intro a' b' d d' _ e
      cases e
      refine ⟨fun j hj => upd_ne _ _ _ hj, ?_, ?_, ?_, ?_, ?_⟩
      · dsimp only; rw [upd_same]; exact fun x hx => by cases hx
      · dsimp only; rw [upd_same]; exact fun op c hh => by cases hh
      · intro x _ h2 hx
        refine keeps x hx (fun hxf => ?_)
        rw [hf' x hxf] at h2; cases h2
      · rintro x ⟨rd, hr, j, hj, rfl⟩ _
        rcases step_eff hP hI hs with ⟨rfl, _⟩ | k
        · rfl
        · exact eff_rc k hw' hl (by rw [((hI.rds rd hr).roots j hj).1]; simp)
      · intro x hx
        have hd := st4 x hx
        dsimp only
        rcases step_eff hP hI hs with ⟨rfl, _⟩ | k
        · exact hd
        · rcases k.st_step hI x with h2 | h2
          · rw [h2, hd]
          · cases h2 with
            | undelegate => exact absurd ⟨x, rfl, hx⟩ hu
            | _ => first | assumption | (exfalso; simp_all [isLife, isWalk]; done)
    · refine ⟨Or.inl hs, ?_⟩
      classical
      refine MInv.end_ (m := low m s) hP hI hpc0 hd0 hs (X := if s' = s then [] else foot s op) ?_ ?_ ?_
      · intro x hxX hst
        split at hxX
        · rename_i he; rw [he]; exact .refl _ _
        · rcases step_eff hP hI hs with ⟨h2, _⟩ | k
          · rw [h2]; exact .refl _ _
          · exact Atom.Eff.keeps k hw' hst hxX
      · rintro rd rfl; cases hl
      · intro j hj hne x hx hxX
        split at hxX
        · cases hxX
        · rename_i he
          rcases step_eff hP hI hs with ⟨h2, _⟩ | k
          · exact he h2
          · rw [← hfoot k] at hxX
            exact (free_iff ..).mp (hf' x hxX) j hj (held_base hx)
    · intro b' op' ret' e; cases e; exact hl

end

end Verif.Life
