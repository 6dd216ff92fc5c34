import Verif.Weak.Spin
import Verif.Weak.Props

namespace Verif.Spin

open Verif.Weak (upd join Ev Sc Kind upd_app join_true)

variable {T X V : Type} [DecidableEq T] [DecidableEq X] [DecidableEq V]

/-- The CPU has the lock. -/
def Pc.has : Pc → Bool
  | .held | .check false => true
  | _ => false

/-- The machine and the ideal one; `top x` is the newest timestamp of `x`. -/
structure Inv (s : St T X V) (a : Sc T X V) (top : X → Nat) : Prop where
  hd : ∀ x, ∃ tl, s.mem x = (top x, a.mem x) :: tl ∧ ∀ m ∈ tl, m.1 < top x
  holder : ∀ t, (s.pc t).has = true ↔ a.holder = some t
  ref : a.ref = none
  word : s.word = 0 ↔ a.holder = none
  fresh : ∀ t x, (s.pc t).has = true → top x ≤ s.xv t x
  rel : a.holder = none → ∀ x, top x ≤ s.view x
  wfe : ∀ t, s.pc t = .wfe → s.ev t = true ∨ (s.mon t = true ∧ s.word ≠ 0)
  test : ∀ t w, s.pc t = .test w → s.ev t = true ∨ (s.mon t = true ∧ s.word = w)
  stxr : ∀ t, s.pc t = .stxr → s.ev t = true ∨ s.mon t = true
  check : ∀ t, s.pc t = .check true → s.ev t = true
  armed : ∀ t, s.pc t = .stxr → s.mon t = true → s.word = 0 ∧ ∀ x, top x ≤ s.xv t x
  loaded : ∀ t w, s.pc t = .test w → s.mon t = true → s.word = w ∧ (w = 0 → ∀ x, top x ≤ s.xv t x)

omit [DecidableEq T] [DecidableEq X] [DecidableEq V] in
theorem inv_init (mon ev : T → Bool) (v : X → V) : Inv (init mon ev v : St T X V) (Sc.init 0 v) (fun _ => 0) := by
  constructor <;> simp [init, Sc.init, Pc.has]

section
variable {s s' : St T X V} {a : Sc T X V} {top : X → Nat} {e : Ev T X V}

abbrev kl : X → Kind := fun _ => .lock

set_option hygiene false in
/-- Every clause of the invariant in turn. -/
macro "spin_crunch" : tactic => `(tactic| (
  constructor <;> (try simp only [St.store, upd_app, join_true, if_true] at *) <;> (try simp only [upd] at *) <;>
  first
  | assumption
  | grind [Pc.has, join_true, upd]))

theorem sim_insn (i : Inv s a top) {t : T} (h : insn {} s t = some (s', e)) :
    ∃ b, a.step kl e = some b ∧ Inv s' b top := by
  obtain ⟨i1, i2, i3, i4, i5, i6, i7, i8, i9, i10, i11, i12⟩ := i
  unfold insn at h
  split at h
  · cases h
  · cases h
  · cases h
    exact ⟨a, rfl, by spin_crunch⟩
  · split at h <;> cases h
    exact ⟨a, rfl, by spin_crunch⟩
  · cases h
    exact ⟨a, rfl, by spin_crunch⟩
  · cases h
    exact ⟨a, rfl, by spin_crunch⟩
  · split at h <;> cases h
    · have h1 : a.holder = none := by grind
      refine ⟨_, by simp only [Sc.step]; rw [if_pos ⟨h1, by simp [i3]⟩], ?_⟩
      spin_crunch
    · exact ⟨a, rfl, by spin_crunch⟩
  · cases h
    exact ⟨a, rfl, by spin_crunch⟩

theorem sim_step (i : Inv s a top) {c : Act T X V} (h : step {} s c = some (s', e)) :
    ∃ b top', a.step kl e = some b ∧ Inv s' b top' := by
  cases c with
  | step t =>
    obtain ⟨b, h1, h2⟩ := sim_insn i h
    exact ⟨b, top, h1, h2⟩
  | call t =>
    obtain ⟨i1, i2, i3, i4, i5, i6, i7, i8, i9, i10, i11, i12⟩ := i
    simp only [step] at h
    split at h <;> cases h
    exact ⟨a, top, rfl, by spin_crunch⟩
  | release t =>
    obtain ⟨i1, i2, i3, i4, i5, i6, i7, i8, i9, i10, i11, i12⟩ := i
    simp only [step] at h
    split at h <;> cases h
    have h1 : a.holder = some t := by grind [Pc.has]
    refine ⟨_, top, by simp only [Sc.step]; rw [if_pos h1], ?_⟩
    spin_crunch
  | clear t =>
    obtain ⟨i1, i2, i3, i4, i5, i6, i7, i8, i9, i10, i11, i12⟩ := i
    simp only [step] at h
    cases h
    exact ⟨a, top, rfl, by spin_crunch⟩
  | event t =>
    obtain ⟨i1, i2, i3, i4, i5, i6, i7, i8, i9, i10, i11, i12⟩ := i
    simp only [step] at h
    cases h
    exact ⟨a, top, rfl, by spin_crunch⟩
  | learn t t' =>
    obtain ⟨i1, i2, i3, i4, i5, i6, i7, i8, i9, i10, i11, i12⟩ := i
    simp only [step] at h
    cases h
    exact ⟨a, top, rfl, by spin_crunch⟩
  | write t x v ts =>
    simp only [step] at h
    split at h <;> cases h
    rename_i hc
    obtain ⟨hp, hv, hn⟩ := hc
    have h1 : a.holder = some t := (i.holder t).1 (by rw [hp]; rfl)
    have hts : top x < ts := by have := i.fresh t x (by rw [hp]; rfl); omega
    refine ⟨{ a with mem := fun y => if y = x then v else a.mem y }, upd top x ts, ?_, ?_⟩
    · have hm : a.may kl t x = true := by simp [Sc.may, h1]
      simp only [Sc.step]
      rw [if_pos hm]
    · obtain ⟨i1, i2, i3, i4, i5, i6, i7, i8, i9, i10, i11, i12⟩ := i
      constructor
      · intro y
        simp only [upd]
        by_cases hy : y = x
        · subst hy
          obtain ⟨tl, h2, h3⟩ := i1 y
          refine ⟨s.mem y, by simp, ?_⟩
          simp only [if_pos]
          rw [h2]
          grind
        · simp only [if_neg hy]
          exact i1 y
      all_goals try simp only [upd_app] at *
      all_goals try simp only [upd] at *
      all_goals first
        | assumption
        | grind [Pc.has]
  | read t x j =>
    simp only [step] at h
    split at h
    case h_1 => cases h
    rename_i m hm
    split at h <;> cases h
    rename_i hc
    obtain ⟨hp, hv⟩ := hc
    have h1 : a.holder = some t := (i.holder t).1 (by rw [hp]; rfl)
    have hf := i.fresh t x (by rw [hp]; rfl)
    obtain ⟨tl, h2, h3⟩ := i.hd x
    have hm' : m ∈ s.mem x := List.mem_of_getElem? hm
    have he : m = (top x, a.mem x) := by
      rw [h2] at hm'
      rcases List.mem_cons.1 hm' with h | h
      · exact h
      · have := h3 m h; omega
    refine ⟨a, top, ?_, ?_⟩
    · have hm : a.may kl t x = true := by simp [Sc.may, h1]
      simp only [Sc.step]
      rw [if_pos ⟨hm, by rw [he]⟩]
    · obtain ⟨i1, i2, i3, i4, i5, i6, i7, i8, i9, i10, i11, i12⟩ := i
      spin_crunch

theorem run_sim {cs : List (Act T X V)} {tr : List (Ev T X V)} (i : Inv s a top) (h : run {} s cs = some (s', tr)) :
    ∃ b top', a.run kl tr = some b ∧ Inv s' b top' := by
  induction cs generalizing s a top tr with
  | nil => simp only [run] at h; cases h; exact ⟨a, top, rfl, i⟩
  | cons c cs ih =>
    simp only [run, Option.bind_eq_some_iff, Option.map_eq_some_iff] at h
    obtain ⟨⟨s1, e1⟩, h1, ⟨s2, tr2⟩, h2, h3⟩ := h
    cases h3
    obtain ⟨b, top', h4, h5⟩ := sim_step i h1
    obtain ⟨b', top'', h6, h7⟩ := ih h5 h2
    exact ⟨b', top'', by simp only [Sc.run, h4, Option.bind_some, h6], h7⟩

/-- How many more instructions a CPU executes, at most, before somebody gets the lock that is free. -/
def rankOf (p : Pc) (mon : Bool) : Nat :=
  match p with
  | .idle => 4
  | .sevl => 4
  | .wfe => 3
  | .ldaxr => 2
  | .test w => bif w == 0 then (bif mon then 1 else 6) else 4
  | .stxr => bif mon then 0 else 5
  | .check b => bif b then 4 else 0
  | .held => 0

def rank (s : St T X V) (t : T) : Nat := rankOf (s.pc t) (s.mon t)

/-- Monitors are not opened for no reason. -/
def Act.quiet : Act T X V → Bool
  | .clear _ => false
  | _ => true

omit [DecidableEq T] [DecidableEq X] [DecidableEq V] in
theorem rankOf_le (p : Pc) (m : Bool) : rankOf p m ≤ 6 := by
  cases p with
  | test w => simp only [rankOf]; cases (w == 0) <;> cases m <;> simp
  | stxr => cases m <;> simp [rankOf]
  | check b => cases b <;> simp [rankOf]
  | _ => simp [rankOf]

omit [DecidableEq X] [DecidableEq V] in
theorem rank_insn (i : Inv s a top) (hw : s.word = 0) {u : T} (h : insn {} s u = some (s', e)) (he : ∀ u, e ≠ .lock u) (t : T) :
    s'.word = 0 ∧ rank s' t + (if u = t then 1 else 0) ≤ rank s t := by
  have hno : (s.pc u).has = false := by
    have h1 := i.holder u
    rw [i.word.1 hw] at h1
    simpa using h1
  unfold insn at h
  split at h
  · cases h
  · cases h
  · rename_i hp
    cases h
    refine ⟨hw, ?_⟩
    simp only [rank, upd]
    by_cases htu : t = u
    · subst htu; simp [hp, rankOf]
    · simp [htu, Ne.symm htu]
  · rename_i hp
    split at h <;> cases h
    refine ⟨hw, ?_⟩
    simp only [rank, upd]
    by_cases htu : t = u
    · subst htu; simp [hp, rankOf]
    · simp [htu, Ne.symm htu]
  · rename_i hp
    cases h
    refine ⟨hw, ?_⟩
    simp only [rank, upd]
    by_cases htu : t = u
    · subst htu; simp [hp, rankOf, hw, upd]
    · simp [htu, Ne.symm htu, upd]
  · rename_i w hp
    cases h
    refine ⟨hw, ?_⟩
    simp only [rank, upd]
    by_cases htu : t = u
    · subst htu
      by_cases h0 : w = 0
      · cases hm : s.mon t <;> simp [hp, rankOf, h0]
      · have h1 : (w == 0) = false := by simpa using h0
        simp only [hp, if_pos, if_pos h0, rankOf, h1]
        simp
    · simp [htu, Ne.symm htu]
  · rename_i hp
    split at h <;> cases h
    · exact absurd rfl (he u)
    · rename_i hm
      refine ⟨hw, ?_⟩
      simp only [rank, upd]
      by_cases htu : t = u
      · subst htu
        simp [hp, rankOf, hm]
      · simp [htu, Ne.symm htu]
  · rename_i b hp
    cases h
    refine ⟨hw, ?_⟩
    simp only [rank, upd]
    by_cases htu : t = u
    · subst htu
      rw [hp] at hno
      cases b
      · cases hno
      · simp [hp, rankOf]
    · simp [htu, Ne.symm htu]

omit [DecidableEq V] in
theorem rank_step (i : Inv s a top) (hw : s.word = 0) {c : Act T X V} (hq : c.quiet = true)
    (h : step {} s c = some (s', e)) (he : ∀ u, e ≠ .lock u) (t : T) :
    s'.word = 0 ∧ rank s' t + (if c.by t then 1 else 0) ≤ rank s t := by
  have hno : ∀ u, s.pc u ≠ .held := by
    intro u hp
    have h1 := (i.holder u).1 (by rw [hp]; rfl)
    rw [i.word.1 hw] at h1
    cases h1
  cases c with
  | clear u => cases hq
  | step u =>
    have := rank_insn i hw h he t
    simpa [Act.by] using this
  | call u =>
    simp only [step] at h
    split at h <;> cases h
    rename_i hp
    refine ⟨hw, ?_⟩
    simp only [rank, upd, Act.by]
    by_cases htu : t = u
    · subst htu; simp [hp, rankOf]
    · simp [htu]
  | release u =>
    simp only [step] at h
    rw [if_neg (hno u)] at h
    cases h
  | event u => simp only [step] at h; cases h; exact ⟨hw, Nat.le_refl _⟩
  | learn u v => simp only [step] at h; cases h; exact ⟨hw, Nat.le_refl _⟩
  | write u x v ts =>
    simp only [step] at h
    rw [if_neg (fun hc => hno u hc.1)] at h
    cases h
  | read u x j =>
    simp only [step] at h
    split at h
    · cases h
    · rw [if_neg (fun hc => hno u hc.1)] at h
      cases h

theorem rank_run {cs : List (Act T X V)} {tr : List (Ev T X V)} (i : Inv s a top) (hw : s.word = 0)
    (hq : ∀ c ∈ cs, c.quiet = true) (h : run {} s cs = some (s', tr)) (he : ∀ e ∈ tr, ∀ u, e ≠ .lock u) (t : T) :
    s'.word = 0 ∧ rank s' t + cs.countP (Act.by t) ≤ rank s t := by
  induction cs generalizing s a top tr with
  | nil => simp only [run] at h; cases h; exact ⟨hw, Nat.le_refl _⟩
  | cons c cs ih =>
    simp only [run, Option.bind_eq_some_iff, Option.map_eq_some_iff] at h
    obtain ⟨⟨s1, e1⟩, h1, ⟨s2, tr2⟩, h2, h3⟩ := h
    cases h3
    obtain ⟨b, top', h4, h5⟩ := sim_step i h1
    obtain ⟨h6, h7⟩ := rank_step i hw (hq c (by simp)) h1 (he e1 (by simp)) t
    obtain ⟨h8, h9⟩ := ih h5 h6 (fun c hc => hq c (by simp [hc])) h2 (fun e hm => he e (by simp [hm]))
    refine ⟨h8, ?_⟩
    dsimp only at h9 ⊢
    rw [List.countP_cons]
    omega

end


end Verif.Spin
