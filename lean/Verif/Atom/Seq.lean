import Verif.Atom.Model
import Verif.Rmm.Frame

/-!
# The steps of a walking command, run without interruption, are the atomic command
-/

namespace Verif.Atom

open Rmm

/-- The steps of a walking command, one after the other. -/
def seq (P : Plat) (s : State) (op : Op) : Out :=
  match early P s op with
  | some ret => some (s, ret)
  | none =>
    if ((first op).all fun x => lk P s x.1 x.2) = true then
      match getRd s (rdA op) with
      | none => none
      | some r =>
        match pre s r op with
        | .err ret => some (s, ret)
        | .bad => none
        | .go q =>
          match walk s r (ipa op) (tgt op) with
          | none => none
          | some w => post P s r q w op
    else some (s, errInput)

theorem two_all (f : Nat × GSt → Bool) (a b : Nat × GSt) : (two a b).all f = (f a && f b) := by
  unfold two
  split
  · simp [Bool.and_comm]
  · simp

theorem step_seq (P : Plat) (s : State) (op : Op) (hw : isWalk op = true)
    (hr : ∀ x, s.st x = .rd → ∃ r, getRd s x = some r) : step P s op = seq P s op := by
  have hlk : ∀ x, lk P s x .rd = true → ∃ r, getRd s x = some r := fun x h => hr x ((lk_iff ..).mp h).2
  cases op with
  | rttCreate rd rtt a lvl =>
    simp only [step, rttCreate, seq, early, first, two_all, rdA]
    split
    · cases getRd s rd with
      | none => rfl
      | some r =>
        simp only [pre]
        split
        · split
          · rfl
          · rfl
        · rfl
    · rfl
  | rttFold rd a lvl =>
    simp only [step, rttFold, seq, early, first, rdA, List.all_cons, List.all_nil, Bool.and_true]
    split
    · cases getRd s rd with
      | none => rfl
      | some r =>
        simp only [pre]
        split
        · rfl
        · rfl
    · rfl
  | rttDestroy rd a lvl =>
    simp only [step, rttDestroy, seq, early, first, rdA, List.all_cons, List.all_nil, Bool.and_true]
    split
    · cases getRd s rd with
      | none => rfl
      | some r =>
        simp only [pre]
        split
        · rfl
        · rfl
    · rfl
  | rttMapUnprotected rd a lvl h =>
    simp only [step, rttMapUnprotected, seq, early, first, rdA, List.all_cons, List.all_nil, Bool.and_true]
    by_cases h1 : 1 ≤ lvl ∧ lvl ≤ 3
    · rw [if_pos h1, if_pos h1]
      dsimp only
      split
      · cases getRd s rd with
        | none => rfl
        | some r =>
          simp only [pre]
          cases S2tte.hostNsIsValid r.lpa2 h lvl with
          | none => rfl
          | some b =>
            cases b with
            | false => rfl
            | true =>
              dsimp only
              split
              · split
                · rfl
                · rfl
              · rfl
      · rfl
    · rw [if_neg h1, if_neg h1]
  | rttUnmapUnprotected rd a lvl =>
    simp only [step, rttUnmapUnprotected, seq, early, first, rdA, List.all_cons, List.all_nil, Bool.and_true]
    by_cases h1 : 1 ≤ lvl ∧ lvl ≤ 3
    · rw [if_pos h1, if_pos h1]
      dsimp only
      split
      · cases getRd s rd with
        | none => rfl
        | some r =>
          simp only [pre]
          split
          · split
            · rfl
            · rfl
          · rfl
      · rfl
    · rw [if_neg h1, if_neg h1]
  | rttReadEntry rd a lvl =>
    simp only [step, rttReadEntry, seq, early, first, rdA, List.all_cons, List.all_nil, Bool.and_true]
    split
    · cases getRd s rd with
      | none => rfl
      | some r =>
        simp only [pre]
        split
        · rfl
        · rfl
    · rfl
  | dataCreateUnknown rd data a =>
    simp only [step, dataCreateUnknown, seq, early, first, two_all, rdA]
    split
    · cases getRd s rd with
      | none => rfl
      | some r =>
        simp only [pre]
        split
        · split
          · rfl
          · rfl
        · rfl
    · rfl
  | dataCreate rd data a src flags =>
    simp only [step, dataCreate, seq, early, first, two_all, rdA]
    by_cases h1 : flags ≠ 0 ∧ flags ≠ 1
    · rw [if_pos h1, if_pos h1]
    rw [if_neg h1, if_neg h1]
    by_cases h2 : lk P s src .ns = true
    swap
    · rw [if_neg h2, if_neg h2]
    rw [if_pos h2, if_pos h2]
    dsimp only
    split
    · cases getRd s rd with
      | none => rfl
      | some r =>
        simp only [pre]
        split
        · rfl
        · split
          · split
            · rfl
            · rfl
          · rfl
    · rfl
  | dataDestroy rd a =>
    simp only [step, dataDestroy, seq, early, first, rdA, List.all_cons, List.all_nil, Bool.and_true]
    split
    · cases getRd s rd with
      | none => rfl
      | some r =>
        simp only [pre]
        split
        · rfl
        · rfl
    · rfl
  | rttInitRipas rd base top =>
    simp only [step, rttInitRipas, seq, early, first, rdA, List.all_cons, List.all_nil, Bool.and_true]
    by_cases h1 : top ≤ base
    · rw [if_pos h1, if_pos h1]
    rw [if_neg h1, if_neg h1]
    dsimp only
    split
    · cases getRd s rd with
      | none => rfl
      | some r =>
        simp only [pre]
        split
        · split
          · rfl
          · rfl
        · rfl
    · rfl
  | rttSetRipas rd recA base top =>
    simp only [step, rttSetRipas, seq, early, first, two_all, rdA]
    by_cases h1 : top ≤ base
    · rw [if_pos h1, if_pos h1]
    rw [if_neg h1, if_neg h1]
    dsimp only
    by_cases h2 : (lk P s rd .rd && lk P s recA .recd) = true
    swap
    · rw [if_neg h2, if_neg h2]
    rw [if_pos h2, if_pos h2]
    obtain ⟨r, hr'⟩ := hlk rd (by rw [Bool.and_eq_true] at h2; exact h2.1)
    rw [hr']
    simp only [pre]
    split
    · rfl
    · cases getRec s recA with
      | none => rfl
      | some c =>
        dsimp only
        split
        · rfl
        · split
          · rfl
          · split
            · rfl
            · rfl
  | _ => cases hw

/-! ## What the steps depend on -/

theorem mem_two (p a b : Nat × GSt) : p ∈ two a b ↔ p = a ∨ p = b := by
  unfold two
  split <;> simp [or_comm]

theorem rd_first (op : Op) (hw : isWalk op = true) : (rdA op, GSt.rd) ∈ first op := by
  cases op with
  | rttCreate | rttFold | rttDestroy | rttMapUnprotected | rttUnmapUnprotected | rttReadEntry
  | dataCreateUnknown | dataCreate | dataDestroy | rttInitRipas | rttSetRipas => simp [first, rdA, mem_two]
  | _ => cases hw

theorem first_kept (op : Op) (hw : isWalk op = true) :
    ∀ p ∈ first op, p.1 ∈ kept op ∨ p = (rdA op, GSt.rd) := by
  cases op with
  | rttCreate | rttFold | rttDestroy | rttMapUnprotected | rttUnmapUnprotected | rttReadEntry
  | dataCreateUnknown | dataCreate | dataDestroy | rttInitRipas | rttSetRipas =>
    simp only [first, rdA, kept, mem_two]; intro p hp; simp at hp ⊢; aesop
  | _ => cases hw

theorem kept_first (op : Op) (hw : isWalk op = true) : ∀ x ∈ kept op, ∃ e, (x, e) ∈ first op := by
  cases op with
  | rttCreate | rttFold | rttDestroy | rttMapUnprotected | rttUnmapUnprotected | rttReadEntry
  | dataCreateUnknown | dataCreate | dataDestroy | rttInitRipas | rttSetRipas =>
    simp only [first, kept, mem_two]; intro x hx; simp at hx ⊢; try aesop
  | _ => cases hw

/-- The states of the granules locked first. -/
theorem first_st (op : Op) : ∀ p ∈ first op, p.2 = .rd ∨ p.2 = .delegated ∨ p.2 = .recd := by
  cases op <;> (simp only [first, mem_two, List.mem_singleton]; intro p hp; aesop)

theorem SameGeo.inPar {r r' : Rd} (g : SameGeo r r') (a : Nat) : r'.inPar a = r.inPar a := by
  unfold Rd.inPar; rw [g.par]

theorem SameGeo.vma {r r' : Rd} (g : SameGeo r r') (a d : Nat) : validateMapAddr r' a d = validateMapAddr r a d := by
  unfold validateMapAddr; rw [g.ipa, g.lpa2]

theorem SameGeo.vs {r r' : Rd} (g : SameGeo r r') (a : Nat) (l : Int) : validateStruct r' a l = validateStruct r a l := by
  unfold validateStruct; rw [g.d0, SameGeo.vma g]

theorem SameGeo.vm {r r' : Rd} (g : SameGeo r r') (a : Nat) (l : Int) : validateMap r' a l = validateMap r a l := by
  unfold validateMap; rw [SameGeo.vma g]

theorem SameGeo.ve {r r' : Rd} (g : SameGeo r r') (a : Nat) (l : Int) : validateEntry r' a l = validateEntry r a l := by
  unfold validateEntry; rw [g.d0, SameGeo.vma g]

theorem SameGeo.rootFor {r r' : Rd} (g : SameGeo r r') (a : Nat) : Rmm.rootFor r' a = Rmm.rootFor r a := by
  unfold Rmm.rootFor; rw [g.ipa, g.d0, g.root]

theorem SameGeo.walk {r r' : Rd} (g : SameGeo r r') (s : State) (a t : Nat) : Rmm.walk s r' a t = Rmm.walk s r a t := by
  unfold Rmm.walk; rw [g.d0, g.ipa, g.root, g.nroots, SameGeo.rootFor g]

theorem SameGeo.hostEntry {r r' : Rd} (g : SameGeo r r') (h : BitVec 64) (l : Int) :
    Rmm.hostEntry r' h l = Rmm.hostEntry r h l := by unfold Rmm.hostEntry; rw [g.lpa2]

theorem SameGeo.readRegs {r r' : Rd} (g : SameGeo r r') (e : Entry) : Rmm.readRegs r' e = Rmm.readRegs r e := by
  cases e <;> simp only [Rmm.readRegs]; rw [g.lpa2]

/-- The checks see only the geometry, unless the realm descriptor stays locked. -/
theorem pre_geo {s : State} {r r' : Rd} {op : Op} (hw : isWalk op = true) (g : SameGeo r r')
    (hk : rdA op ∈ kept op → r' = r) : pre s r' op = pre s r op := by
  cases op with
  | rttCreate | rttFold | rttDestroy | rttMapUnprotected | rttUnmapUnprotected | rttReadEntry | dataDestroy =>
    simp only [pre, SameGeo.inPar g, SameGeo.vma g, SameGeo.vs g, SameGeo.vm g, SameGeo.ve g, g.lpa2]
  | dataCreateUnknown | dataCreate | rttInitRipas | rttSetRipas =>
    rw [hk (by simp [rdA, kept])]
  | _ => cases hw

/-- So does the rest of the command. -/
theorem post_geo {P : Plat} {s : State} {r r' : Rd} {q : Rec} {w : Walk} {op : Op} (hw : isWalk op = true)
    (g : SameGeo r r') (hk : rdA op ∈ kept op → r' = r) : post P s r' q w op = post P s r q w op := by
  cases op with
  | rttCreate | rttFold | rttDestroy | rttMapUnprotected | rttUnmapUnprotected | rttReadEntry | dataDestroy =>
    simp only [post, SameGeo.inPar g, g.vmid, SameGeo.hostEntry g, SameGeo.readRegs g]
  | dataCreateUnknown | dataCreate | rttInitRipas | rttSetRipas =>
    rw [hk (by simp [rdA, kept])]
  | _ => cases hw

/-- A granule that another CPU has locked: its state stays; so do its contents, unless it is a
REC that is running. -/
structure Keeps (s s' : State) (x : Nat) : Prop where
  st : s'.st x = s.st x
  mem : (s.st x = .recd ∧ s.rc x ≠ 0) ∨ (s'.mem x = s.mem x ∧ (s.rc x = 0 → s'.rc x = 0))

theorem Keeps.refl (s : State) (x : Nat) : Keeps s s x := ⟨rfl, Or.inr ⟨rfl, id⟩⟩

theorem pre_stable {s s' : State} {r : Rd} {op : Op} {q : Rec} (h : pre s r op = .go q)
    (hk : ∀ x ∈ kept op, Keeps s s' x) : pre s' r op = .go q := by
  cases op with
  | rttSetRipas rd recA base top =>
    have k := hk recA (by simp [kept])
    simp only [pre] at h ⊢
    by_cases h0 : s.rc recA = 0
    swap
    · rw [if_pos h0] at h; cases h
    rw [if_neg (not_not.mpr h0)] at h
    rcases k.mem with ⟨_, h1⟩ | ⟨h1, h2⟩
    · exact absurd h0 h1
    rw [if_neg (not_not.mpr (h2 h0))]
    unfold getRec at h ⊢
    rw [h1]; exact h
  | _ => exact h

/-- The address of every walk that starts is inside the address space. -/
theorem pre_lt {s : State} {r : Rd} {op : Op} {q : Rec} (hw : isWalk op = true) (h : pre s r op = .go q) :
    ipa op < r.ipaSize := by
  have key : ∀ a d, validateMapAddr r a d = true → a < r.ipaSize := by
    intro a d hh; simp only [validateMapAddr, Bool.and_eq_true, decide_eq_true_eq] at hh; exact hh.1.1
  cases op with
  | rttCreate rd rtt a lvl | rttFold rd a lvl | rttDestroy rd a lvl =>
    simp only [pre] at h
    split at h
    · rename_i hv
      simp only [validateStruct, Bool.and_eq_true] at hv
      exact key _ _ hv.2
    · cases h
  | rttMapUnprotected rd a lvl hd =>
    simp only [pre] at h
    split at h
    · cases h
    · cases h
    · split at h
      · rename_i hv
        simp only [validateMap, Bool.and_eq_true] at hv
        exact key _ _ hv.2
      · cases h
  | rttUnmapUnprotected rd a lvl =>
    simp only [pre] at h
    split at h
    · rename_i hv
      simp only [validateMap, Bool.and_eq_true] at hv
      exact key _ _ hv.2
    · cases h
  | rttReadEntry rd a lvl =>
    simp only [pre] at h
    split at h
    · rename_i hv
      simp only [validateEntry, Bool.and_eq_true] at hv
      exact key _ _ hv.2
    · cases h
  | dataCreateUnknown rd data a =>
    simp only [pre] at h
    split at h
    · rename_i hv
      rw [Bool.and_eq_true] at hv
      exact key _ _ hv.2
    · cases h
  | dataCreate rd data a src flags =>
    simp only [pre] at h
    split at h
    · cases h
    split at h
    · rename_i hv
      rw [Bool.and_eq_true] at hv
      exact key _ _ hv.2
    · cases h
  | dataDestroy rd a =>
    simp only [pre] at h
    split at h
    · rename_i hv
      rw [Bool.and_eq_true] at hv
      exact key _ _ hv.2
    · cases h
  | rttInitRipas rd base top =>
    simp only [pre] at h
    split at h
    · rename_i hv
      simp only [Bool.and_eq_true] at hv
      exact key _ _ hv.1.1.1
    · cases h
  | rttSetRipas rd recA base top =>
    simp only [pre] at h
    split at h
    · cases h
    split at h
    · cases h
    split at h
    · cases h
    split at h
    · cases h
    split at h
    · rename_i hv; exact key _ _ hv
    · cases h
  | _ => cases hw

end Verif.Atom
