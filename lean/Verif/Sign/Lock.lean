import Verif.Sign.Step

/-! The locks: every lock that is taken has a holder, unless EL3 reports an error for a response. -/

namespace Verif.Sign

/-- EL3 does not report an error when a response is pulled. -/
def NoErr (s : State) (o : Op) : Prop :=
  ∀ c e flag a, o = .cpu c e flag → s.pc c = .pull2 a → e ≠ .error

/-- The CPU holds the lock of the shared buffer. -/
def Pc.sh : Pc → Bool
  | .sign4 _ | .pull2 _ => true
  | _ => false

/-- The CPU holds the lock of the context of this REC. -/
def Pc.locks : Pc → Option Nat
  | .init2 a _ | .sign2 a | .sign3 a | .sign4 a | .sign5 a => some a
  | .write2 _ b _ | .write3 _ b _ | .write4 _ b _ | .write5 _ b => some b
  | _ => none

structure Inv3 (s : State) : Prop where
  sh : s.shared = true → ∃ c, (s.pc c).sh = true
  lock : ∀ b t, s.recs b = some t → t.ctx.lock = true → ∃ c, (s.pc c).locks = some b
  gl : ∀ b, s.glock b = true → ∃ c, (s.pc c).foreign = some b

theorem inv3_start : Inv3 start := by
  constructor <;> simp [start]

theorem inv3_cpu {s s' : State} {c : Nat} {p : Pc} (h : Inv3 s) (hpc : s'.pc = upd s.pc c p)
    (hsh : s'.shared = true → p.sh = true ∨ (s.shared = true ∧ (s.pc c).sh = false))
    (hlock : ∀ b t', s'.recs b = some t' → t'.ctx.lock = true →
      p.locks = some b ∨ ((s.pc c).locks ≠ some b ∧ ∃ t, s.recs b = some t ∧ t.ctx.lock = true))
    (hgl : ∀ b, s'.glock b = true → p.foreign = some b ∨ ((s.pc c).foreign ≠ some b ∧ s.glock b = true)) : Inv3 s' := by
  have hc : s'.pc c = p := by rw [hpc]; simp [upd]
  have hd : ∀ d, d ≠ c → s'.pc d = s.pc d := by intro d h; rw [hpc]; simp [upd, h]
  constructor
  · intro h1
    rcases hsh h1 with h2 | ⟨h2, h3⟩
    · exact ⟨c, by rw [hc]; exact h2⟩
    · obtain ⟨d, h4⟩ := h.sh h2
      exact ⟨d, by rw [hd d (by rintro rfl; rw [h3] at h4; cases h4)]; exact h4⟩
  · intro b t h1 h2
    rcases hlock b t h1 h2 with h3 | ⟨h3, t1, h4, h5⟩
    · exact ⟨c, by rw [hc]; exact h3⟩
    · obtain ⟨d, h6⟩ := h.lock b t1 h4 h5
      exact ⟨d, by rw [hd d (by rintro rfl; exact h3 h6)]; exact h6⟩
  · intro b h1
    rcases hgl b h1 with h3 | ⟨h3, h4⟩
    · exact ⟨c, by rw [hc]; exact h3⟩
    · obtain ⟨d, h6⟩ := h.gl b h4
      exact ⟨d, by rw [hd d (by rintro rfl; exact h3 h6)]; exact h6⟩

macro "lk" h:term : tactic => `(tactic|
  ( refine inv3_cpu $h rfl ?_ ?_ ?_
    · simp_all [State.go, State.att, State.ctx, release, Pc.sh]
    · intro b t' h1 h2
      simp only [State.go, State.att, State.ctx, release, upd, reduceIte, Option.map_map] at h1
      (repeat' split at h1) <;> (try simp only [Option.map_map, Option.map_eq_some_iff] at h1) <;>
        grind [Pc.locks]
    · intro b h1
      simp only [State.go, State.att, State.ctx, release] at h1
      grind [Pc.foreign, upd]))

theorem inv3_cpuStep {s s' : State} {c : Nat} {e : El3} {flag : Bool} (h3 : Inv3 s)
    (hP : NoErr s (.cpu c e flag)) (hs : cpuStep s c e flag = .ok s') : Inv3 s' := by
  unfold cpuStep at hs
  split at hs
  · cases hs
  · cases hs
  · unfold acquire at hs
    split at hs
    · cases hs
    split at hs
    · cases hs
    cases hs; lk h3
  · unfold init2 at hs; cases hs; lk h3
  · unfold init3 at hs
    split at hs <;> cases hs <;> lk h3
  · unfold acquire at hs
    split at hs
    · cases hs
    split at hs
    · cases hs
    cases hs; lk h3
  · split at hs
    · cases hs
    unfold sign2 at hs
    dsimp only at hs
    split at hs <;> split at hs <;> cases hs <;> lk h3
  · split at hs
    · cases hs
    cases hs; lk h3
  · split at hs
    · cases hs
    unfold sign4 at hs
    dsimp only at hs
    split at hs <;> cases hs <;> lk h3
  · split at hs
    · cases hs
    unfold sign5 at hs
    split at hs
    · cases hs; lk h3
    split at hs
    · split at hs
      · cases hs; lk h3
      · cases hs
    · split at hs <;> cases hs <;> lk h3
  · split at hs
    · cases hs
    cases hs; lk h3
  · rename_i a hp
    have := hP c e flag a rfl hp
    unfold pull2 at hs
    split at hs
    · cases hs; lk h3
    · contradiction
    · split at hs
      · cases hs
      · cases hs; lk h3
  · unfold findRec at hs
    split at hs
    · cases hs; lk h3
    split at hs
    · cases hs; lk h3
    split at hs
    · cases hs
    · cases hs; lk h3
  · unfold acquire at hs
    split at hs
    · cases hs
    split at hs
    · cases hs
    cases hs; lk h3
  · split at hs
    · cases hs
    unfold write2 at hs
    split at hs
    · split at hs
      · cases hs; lk h3
      · cases hs
    · split at hs <;> cases hs <;> lk h3
  · split at hs
    · cases hs
    unfold write3 at hs
    split at hs
    · cases hs
    · cases hs; lk h3
  · cases hs; lk h3
  · dsimp only at hs
    split at hs <;> cases hs <;> lk h3

theorem inv3_step {s s' : State} {o : Op} (h3 : Inv3 s) (hP : NoErr s o) (hs : step s o = .ok s') :
    Inv3 s' := by
  cases o with
  | create a =>
    simp only [step] at hs
    split at hs
    · cases hs
    cases hs
    refine ⟨h3.sh, ?_, h3.gl⟩
    intro b t h
    simp only [upd] at h
    split at h
    · cases h; simp
    · exact h3.lock b t h
  | destroy a =>
    simp only [step] at hs
    split at hs
    · cases hs
    cases hs
    refine ⟨h3.sh, ?_, h3.gl⟩
    intro b t h
    simp only [upd] at h
    split at h
    · cases h
    · exact h3.lock b t h
  | enter c a =>
    simp only [step] at hs
    split at hs
    · split at hs
      · cases hs
      cases hs; lk h3
    · cases hs
  | exit c =>
    simp only [step] at hs
    split at hs
    · cases hs; lk h3
    · cases hs
  | tokenInit c h =>
    simp only [step] at hs
    split at hs
    · split at hs
      · cases hs
      · unfold tokenInit at hs
        split at hs <;> cases hs <;> lk h3
    · cases hs
  | tokenContinue c =>
    simp only [step] at hs
    split at hs
    · split at hs
      · cases hs
      · split at hs
        · cases hs; lk h3
        · cases hs; exact h3
    · cases hs
  | cpu c e flag => exact inv3_cpuStep h3 hP hs
  | el3 i len =>
    simp only [step] at hs
    split at hs
    · cases hs
    · cases hs; exact ⟨h3.sh, h3.lock, h3.gl⟩

theorem inv3_reach {s : State} (h : ReachP NoErr start s) : Inv3 s := by
  induction h with
  | start => exact inv3_start
  | step _ hP hs ih => exact inv3_step ih hP hs

/-- Only one CPU holds the lock of the shared buffer. -/
structure Inv4 (s : State) : Prop where
  sh : ∀ c, (s.pc c).sh = true → s.shared = true
  uniq : ∀ c c', (s.pc c).sh = true → (s.pc c').sh = true → c = c'

theorem inv4_cpu {s s' : State} {c : Nat} {p : Pc} (h : Inv4 s) (hpc : s'.pc = upd s.pc c p)
    (h1 : p.sh = true → s.shared = false ∧ s'.shared = true)
    (h2 : s'.shared = s.shared ∨ s'.shared = true ∨ (s.pc c).sh = true) : Inv4 s' := by
  have hc : s'.pc c = p := by rw [hpc]; simp [upd]
  have hd : ∀ d, d ≠ c → s'.pc d = s.pc d := by intro d h; rw [hpc]; simp [upd, h]
  have key : ∀ d, d ≠ c → (s.pc d).sh = true → p.sh = false := by
    intro d _ h3
    cases hp : p.sh with
    | false => rfl
    | true => have := (h1 hp).1; rw [h.sh d h3] at this; cases this
  constructor
  · intro d hd'
    by_cases e : d = c
    · subst e; rw [hc] at hd'; exact (h1 hd').2
    · rw [hd d e] at hd'
      rcases h2 with h2 | h2 | h2
      · rw [h2]; exact h.sh d hd'
      · exact h2
      · exact absurd (h.uniq d c hd' h2) e
  · intro d d' h3 h4
    by_cases e : d = c <;> by_cases e' : d' = c
    · rw [e, e']
    · subst e; rw [hc] at h3; rw [hd d' e'] at h4; rw [key d' e' h4] at h3; cases h3
    · subst e'; rw [hc] at h4; rw [hd d e] at h3; rw [key d e h3] at h4; cases h4
    · rw [hd d e] at h3; rw [hd d' e'] at h4; exact h.uniq d d' h3 h4

/-- How a step changes the lock of the shared buffer. -/
theorem sh_step {s s' : State} {o : Op} (hs : step s o = .ok s') :
    (s'.pc = s.pc ∧ s'.shared = s.shared ∧ ∀ q ∈ s'.reqs, q ∈ s.reqs) ∨
    ∃ c p, s'.pc = upd s.pc c p ∧
      (p.sh = true → s.shared = false ∧ s'.shared = true) ∧
      (s'.shared = s.shared ∨ s'.shared = true ∨ (s.pc c).sh = true) ∧
      ((s.pc c).sh = true ∨ ∀ q ∈ s'.reqs, q ∈ s.reqs) := by
  cases o with
  | create a =>
    simp only [step] at hs
    split at hs <;> cases hs
    exact .inl ⟨rfl, rfl, fun _ h => h⟩
  | destroy a =>
    simp only [step] at hs
    split at hs <;> cases hs
    exact .inl ⟨rfl, rfl, fun _ h => h⟩
  | enter c a =>
    simp only [step] at hs
    split at hs
    · split at hs <;> cases hs
      exact .inr ⟨c, _, rfl, by simp [Pc.sh], .inl rfl, .inr fun _ h => h⟩
    · cases hs
  | exit c =>
    simp only [step] at hs
    split at hs <;> cases hs
    exact .inr ⟨c, _, rfl, by simp [Pc.sh], .inl rfl, .inr fun _ h => h⟩
  | tokenInit c h =>
    simp only [step] at hs
    split at hs
    · split at hs
      · cases hs
      · unfold tokenInit at hs
        split at hs <;> cases hs <;>
        exact .inr ⟨c, _, rfl, by simp [Pc.sh], .inl rfl, .inr fun _ h => h⟩
    · cases hs
  | tokenContinue c =>
    simp only [step] at hs
    split at hs
    · split at hs
      · cases hs
      · split at hs <;> cases hs
        · exact .inr ⟨c, _, rfl, by simp [Pc.sh], .inl rfl, .inr fun _ h => h⟩
        · exact .inl ⟨rfl, rfl, fun _ h => h⟩
    · cases hs
  | el3 i len =>
    simp only [step] at hs
    split at hs
    · cases hs
    · cases hs
      exact .inl ⟨rfl, rfl, fun q h => List.mem_of_mem_eraseIdx h⟩
  | cpu c e flag =>
    right
    refine ⟨c, ?_⟩
    simp only [step] at hs
    unfold cpuStep at hs
    split at hs
    · cases hs
    · cases hs
    · unfold acquire at hs
      split at hs
      · cases hs
      split at hs <;> cases hs
      exact ⟨_, rfl, by simp [Pc.sh], .inl rfl, .inr fun _ h => h⟩
    · unfold init2 at hs; cases hs
      exact ⟨_, rfl, by simp [Pc.sh], .inl rfl, .inr fun _ h => h⟩
    · unfold init3 at hs
      split at hs <;> cases hs <;> exact ⟨_, rfl, by simp [Pc.sh], .inl rfl, .inr fun _ h => h⟩
    · unfold acquire at hs
      split at hs
      · cases hs
      split at hs <;> cases hs
      exact ⟨_, rfl, by simp [Pc.sh], .inl rfl, .inr fun _ h => h⟩
    · split at hs
      · cases hs
      unfold sign2 at hs
      dsimp only at hs
      split at hs <;> split at hs <;> cases hs <;> exact ⟨_, rfl, by simp [Pc.sh], .inl rfl, .inr fun _ h => h⟩
    · split at hs
      · cases hs
      rename_i h
      cases hs
      exact ⟨_, rfl, fun _ => ⟨by simpa using h, rfl⟩, .inr (.inl rfl), .inr fun _ h => h⟩
    · rename_i hp
      have hh : (s.pc c).sh = true := by rw [hp]; rfl
      split at hs
      · cases hs
      unfold sign4 at hs
      dsimp only at hs
      split at hs <;> cases hs <;> exact ⟨_, rfl, by simp [Pc.sh], .inr (.inr hh), .inl hh⟩
    · split at hs
      · cases hs
      unfold sign5 at hs
      split at hs
      · cases hs; exact ⟨_, rfl, by simp [Pc.sh], .inl rfl, .inr fun _ h => h⟩
      split at hs
      · split at hs <;> cases hs
        exact ⟨_, rfl, by simp [Pc.sh], .inl rfl, .inr fun _ h => h⟩
      · split at hs <;> cases hs <;> exact ⟨_, rfl, by simp [Pc.sh], .inl rfl, .inr fun _ h => h⟩
    · split at hs
      · cases hs
      rename_i h
      cases hs
      exact ⟨_, rfl, fun _ => ⟨by simpa using h, rfl⟩, .inr (.inl rfl), .inr fun _ h => h⟩
    · rename_i hp
      have hh : (s.pc c).sh = true := by rw [hp]; rfl
      unfold pull2 at hs
      split at hs
      · cases hs; exact ⟨_, rfl, by simp [Pc.sh], .inr (.inr hh), .inl hh⟩
      · cases hs; exact ⟨_, rfl, by simp [Pc.sh], .inr (.inr hh), .inl hh⟩
      · split at hs <;> cases hs
        exact ⟨_, rfl, by simp [Pc.sh], .inr (.inr hh), .inl hh⟩
    · unfold findRec at hs
      split at hs
      · cases hs; exact ⟨_, rfl, by simp [Pc.sh], .inl rfl, .inr fun _ h => h⟩
      split at hs
      · cases hs; exact ⟨_, rfl, by simp [Pc.sh], .inl rfl, .inr fun _ h => h⟩
      split at hs <;> cases hs
      exact ⟨_, rfl, by simp [Pc.sh], .inl rfl, .inr fun _ h => h⟩
    · unfold acquire at hs
      split at hs
      · cases hs
      split at hs <;> cases hs
      exact ⟨_, rfl, by simp [Pc.sh], .inl rfl, .inr fun _ h => h⟩
    · split at hs
      · cases hs
      unfold write2 at hs
      split at hs
      · split at hs <;> cases hs
        exact ⟨_, rfl, by simp [Pc.sh], .inl rfl, .inr fun _ h => h⟩
      · split at hs <;> cases hs <;> exact ⟨_, rfl, by simp [Pc.sh], .inl rfl, .inr fun _ h => h⟩
    · split at hs
      · cases hs
      unfold write3 at hs
      split at hs <;> cases hs
      exact ⟨_, rfl, by simp [Pc.sh], .inl rfl, .inr fun _ h => h⟩
    · cases hs; exact ⟨_, rfl, by simp [Pc.sh], .inl rfl, .inr fun _ h => h⟩
    · dsimp only at hs
      split at hs <;> cases hs <;> exact ⟨_, rfl, by simp [Pc.sh], .inl rfl, .inr fun _ h => h⟩

theorem inv4_reach {P : State → Op → Prop} {s : State} (h : ReachP P start s) : Inv4 s := by
  induction h with
  | start => constructor <;> simp [start, Pc.sh]
  | step _ _ hs ih =>
    rcases sh_step hs with ⟨h1, h2, _⟩ | ⟨c, p, h1, h2, h3, _⟩
    · exact ⟨fun c h => by rw [h1] at h; rw [h2]; exact ih.sh c h, fun c c' h h' => by rw [h1] at h h'; exact ih.uniq c c' h h'⟩
    · exact inv4_cpu ih h1 h2 h3

end Verif.Sign
