import Verif.Life.Main

/-!
# What a step records
-/

namespace Verif.Life

open Rmm

/-- The command a CPU is in. -/
def cmdOf : Pc → Option Op
  | .walk .idle => none
  | .walk (.locking op _ _) | .walk (.checked op _) | .walk (.root op _) | .walk (.walking op _ _ _) => some op
  | .cReserve rd pA q | .cLock rd pA q _ _ | .cUndo rd pA q => some (.realmCreate rd pA q)
  | .dSum rd _ _ _ | .dFree rd _ _ => some (.realmDestroy rd)
  | .nTake rd recA pA q _ _ | .nLock rd recA pA q _ _ | .nFree rd recA pA q _ _ => some (.recCreate rd recA pA q)
  | .kFree recA _ _ | .kPut recA _ => some (.recDestroy recA)

/-- What a CPU whose command has been decided will return. -/
def promise : Pc → Option (Op × Ret)
  | .cUndo rd pA q => some (.realmCreate rd pA q, errInput)
  | .dFree rd _ _ => some (.realmDestroy rd, {})
  | .nFree rd recA pA q ret _ => some (.recCreate rd recA pA q, ret)
  | .kFree recA _ _ | .kPut recA _ => some (.recDestroy recA, {})
  | _ => none

/-- The record of a step of CPU `i` in command `op`, with what is promised before and after. -/
inductive Shape (i : Nat) (op : Op) : Option (Op × Ret) → Option Op → Option (Op × Ret) → List Ev → Prop where
  | on {p} : Shape i op p (some op) p []
  | whole {ret} : Shape i op none none none [.exit i op ret, .point i op ret]
  | point {ret} : Shape i op none (some op) (some (op, ret)) [.point i op ret]
  | exit {ret} : Shape i op (some (op, ret)) none none [.exit i op ret]

section
variable {P : Plat} {n : Nat} {m m' : M} {i : Nat} {ev : List Ev}

theorem atom_cmd {am am' : Atom.M} {d : Option (Op × Ret)} (e : Atom.go P n am i = .ok am' d) :
    (∃ op, cmdOf (.walk (am.pc i)) = some op ∧ d = none ∧ cmdOf (.walk (am'.pc i)) = some op) ∨
    ∃ op ret, cmdOf (.walk (am.pc i)) = some op ∧ d = some (op, ret) ∧ am'.pc i = .idle := by
  have fin : ∀ {op s ret}, cmdOf (.walk (am.pc i)) = some op → am.fin i op s ret = .ok am' d →
      (∃ op, cmdOf (.walk (am.pc i)) = some op ∧ d = none ∧ cmdOf (.walk (am'.pc i)) = some op) ∨
      ∃ op ret, cmdOf (.walk (am.pc i)) = some op ∧ d = some (op, ret) ∧ am'.pc i = .idle := by
    intro op s ret h1 h2
    unfold Atom.M.fin at h2
    injection h2 with h2 h3
    subst h2 h3
    exact Or.inr ⟨op, ret, h1, rfl, upd_same ..⟩
  have hto : ∀ {op p}, cmdOf (.walk (am.pc i)) = some op → cmdOf (.walk p) = some op → am.to i p = .ok am' d →
      (∃ op, cmdOf (.walk (am.pc i)) = some op ∧ d = none ∧ cmdOf (.walk (am'.pc i)) = some op) ∨
      ∃ op ret, cmdOf (.walk (am.pc i)) = some op ∧ d = some (op, ret) ∧ am'.pc i = .idle := by
    intro op p h1 h0 h2
    unfold Atom.M.to at h2
    injection h2 with h2 h3
    subst h2 h3
    refine Or.inl ⟨op, h1, rfl, ?_⟩
    simp only [upd_same]; exact h0
  unfold Atom.go at e
  cases hp : am.pc i with
  | idle => rw [hp] at e; cases e
  | locking op todo done =>
    rw [hp] at e fin hto
    cases todo with
    | cons p todo =>
      dsimp only at e
      split at e
      · exact fin rfl e
      split at e
      · split at e
        · exact hto rfl rfl e
        · exact fin rfl e
      · cases e
    | nil =>
      dsimp only at e
      split at e
      · cases e
      split at e
      · exact fin rfl e
      · cases e
      · exact hto rfl rfl e
  | checked op c =>
    rw [hp] at e fin hto
    dsimp only at e
    split at e
    · split at e
      · exact hto rfl rfl e
      · cases e
    · cases e
  | root op c =>
    rw [hp] at e fin hto
    dsimp only at e
    split at e
    swap
    · cases e
    split at e
    · exact hto rfl rfl e
    split at e
    · split at e
      · exact hto rfl rfl e
      · cases e
    · cases e
  | walking op c d' g =>
    rw [hp] at e fin hto
    dsimp only at e
    have hf : (if ((Atom.extra am.s ⟨g, d', idx d' (Atom.ipa op)⟩ op).all (Atom.free n am)) = true then
          match Atom.post P am.s c.r c.q ⟨g, d', idx d' (Atom.ipa op)⟩ op with
          | none => .fail op
          | some (s', ret) => am.fin i op s' ret
        else .blocked) = Atom.Res.ok am' d → _ := fun h => by
      split at h
      · split at h
        · cases h
        · exact fin rfl h
      · cases h
    split at e
    · cases e
    split at e
    · exact hf e
    · split at e
      · split at e
        · split at e
          · exact hto rfl rfl e
          · cases e
        · cases e
      · exact hf e

/-- Only CPU `i` moves in its steps. -/
theorem mstep_pc {act : Atom.Act} (e : mstep P n m i act = .ok m' ev) : m'.pc = upd m.pc i (m'.pc i) := by
  have hto : ∀ {s p ev'}, m.to i s p ev' = .ok m' ev → m'.pc = upd m.pc i (m'.pc i) := by
    intro s p ev' h
    unfold M.to at h
    injection h with h1 _
    subst h1
    simp only [upd_same]
  have hl : ∀ {r}, lift m i r = .ok m' ev → m'.pc = upd m.pc i (m'.pc i) := by
    intro r h
    unfold lift at h
    split at h
    · cases h
    · cases h
    · exact hto h
    · exact hto h
  cases act with
  | go =>
    have e : go P n m i = .ok m' ev := e
    unfold go at e
    split at e
    · exact hl e
    all_goals
      try dsimp only [M.fin] at e
      repeat' split at e
      all_goals first
        | exact hto e
        | cases e
  | start op =>
    have e : start P n m i op = .ok m' ev := e
    unfold start at e
    split at e
    swap
    · cases e
    split at e
    case h_5 => exact hl e
    all_goals
      try dsimp only [M.fin] at e
      repeat' split at e
      all_goals first
        | exact hto e
        | cases e

theorem go_shape (e : go P n m i = .ok m' ev) :
    ∃ op, cmdOf (m.pc i) = some op ∧ Shape i op (promise (m.pc i)) (cmdOf (m'.pc i)) (promise (m'.pc i)) ev := by
  have hto : ∀ {op s p ev'}, cmdOf (m.pc i) = some op → Shape i op (promise (m.pc i)) (cmdOf p) (promise p) ev' →
      m.to i s p ev' = .ok m' ev →
      ∃ op, cmdOf (m.pc i) = some op ∧ Shape i op (promise (m.pc i)) (cmdOf (m'.pc i)) (promise (m'.pc i)) ev := by
    intro op s p ev' h1 h2 h
    unfold M.to at h
    injection h with h3 h4
    subst h3 h4
    exact ⟨op, h1, by simp only [upd_same]; exact h2⟩
  unfold go at e
  cases hp : m.pc i with
  | walk p =>
    rw [hp] at e hto
    dsimp only at e
    cases hr : Atom.go P n m.atom i with
    | blocked => rw [hr] at e; cases e
    | fail op => rw [hr] at e; cases e
    | ok a d =>
      rw [hr] at e
      have k := atom_cmd hr
      have hpa : m.atom.pc i = p := by simp [M.atom, hp, shown]
      rw [hpa] at k
      rcases k with ⟨op, h1, rfl, h2⟩ | ⟨op, ret, h1, rfl, h2⟩
      · refine hto h1 ?_ e
        rw [h2]
        exact .on
      · refine hto h1 ?_ e
        rw [h2]
        exact .whole
  | cLock rd pA q todo done =>
    rw [hp] at e hto
    cases todo with
    | nil =>
      try dsimp only [M.fin] at e
      split at e
      · cases e
      · exact hto rfl .whole e
    | cons x todo =>
      dsimp only at e
      repeat' split at e
      all_goals first
        | exact hto rfl .point e
        | exact hto rfl .on e
        | cases e
  | nTake rd recA pA q todo done =>
    rw [hp] at e hto
    cases todo with
    | nil => exact hto rfl .on e
    | cons x todo =>
      try dsimp only [M.fin] at e
      repeat' split at e
      all_goals first
        | exact hto rfl .whole e
        | exact hto rfl .on e
        | cases e
  | nLock rd recA pA q todo done =>
    rw [hp] at e hto
    cases todo with
    | nil =>
      try dsimp only [M.fin] at e
      repeat' split at e
      all_goals first
        | exact hto rfl .whole e
        | exact hto rfl .point e
        | cases e
    | cons x todo =>
      dsimp only at e
      repeat' split at e
      all_goals first
        | exact hto rfl .point e
        | exact hto rfl .on e
        | cases e
  | nFree rd recA pA q ret todo =>
    rw [hp] at e hto
    cases todo with
    | nil => exact hto rfl .exit e
    | cons x todo =>
      dsimp only at e
      repeat' split at e
      all_goals first
        | exact hto rfl .on e
        | cases e
  | kFree recA rd todo =>
    rw [hp] at e hto
    cases todo with
    | nil => exact hto rfl .on e
    | cons x todo =>
      dsimp only at e
      repeat' split at e
      all_goals first
        | exact hto rfl .on e
        | cases e
  | _ =>
    rw [hp] at e hto
    try dsimp only [M.fin] at e
    repeat' split at e
    all_goals first
      | exact hto rfl .whole e
      | exact hto rfl .on e
      | exact hto rfl .point e
      | exact hto rfl .exit e
      | cases e

theorem start_shape {op : Op} (e : start P n m i op = .ok m' ev) :
    m.pc i = .idle ∧ Shape i op none (cmdOf (m'.pc i)) (promise (m'.pc i)) ev := by
  by_cases hp : m.pc i = .walk .idle
  swap
  · rw [start_busy hp] at e; cases e
  refine ⟨hp, ?_⟩
  have hto : ∀ {s p ev'}, Shape i op none (cmdOf p) (promise p) ev' → m.to i s p ev' = .ok m' ev →
      Shape i op none (cmdOf (m'.pc i)) (promise (m'.pc i)) ev := by
    intro s p ev' h2 h
    unfold M.to at h
    injection h with h3 h4
    subst h3 h4
    simp only [upd_same]; exact h2
  have hl : lift m i (Atom.start P n m.atom i op) = .ok m' ev →
      Shape i op none (cmdOf (m'.pc i)) (promise (m'.pc i)) ev := by
    intro h
    have hpa : m.atom.pc i = .idle := by simp [M.atom, hp, shown]
    unfold Atom.start at h
    rw [hpa] at h
    dsimp only at h
    split at h
    · split at h
      · refine hto ?_ h
        simp only [upd_same]
        exact .whole
      · refine hto ?_ h
        simp only [upd_same]
        exact .on
    · split at h
      · split at h
        · cases h
        · refine hto ?_ h
          simp only [upd_same]
          exact .whole
      · cases h
  unfold start at e
  rw [hp] at e
  dsimp only at e
  split at e
  case h_5 => exact hl e
  all_goals
    try dsimp only [M.fin] at e
    repeat' split at e
    all_goals first
      | exact hto .whole e
      | exact hto .on e
      | exact hto .point e
      | cases e

end

end Verif.Life
