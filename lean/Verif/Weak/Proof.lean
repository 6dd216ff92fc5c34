import Verif.Weak.Spec

namespace Verif.Weak

open Verif.Conc

variable {T X V : Type} [DecidableEq T] [DecidableEq X] [DecidableEq V]

/-- The count is zero. -/
def isZero (w : Desc) : Bool := countOf w = 0

/-- The weak machine and the ideal one: `top x` is the newest timestamp of `x`. -/
structure Inv (k : X → Kind) (s : St T X V) (a : Sc T X V) (top : X → Nat) : Prop where
  hd : ∀ x, ∃ tl, s.mem x = (top x, a.mem x) :: tl ∧ ∀ m ∈ tl, m.1 < top x
  holder : ∀ t, (s.mode t).holds = true ↔ a.holder = some t
  unused : ∀ t, a.holder = some t → (a.unused = true ↔ s.mode t = .own ∨ s.mode t = .got)
  unheld : a.unused = true → a.holder ≠ none
  ref : ∀ t, (s.mode t).refs = true ↔ a.ref = some t
  own : ∀ t, s.mode t = .own → a.ref = none
  lk : locked s.last.val = true ↔ a.holder ≠ none
  cnt : isZero s.last.val = true ↔ a.ref = none
  le1 : (countOf s.last.val).toNat ≤ 1
  st : stateOf s.last.val = a.state
  bnd : ∀ t, s.dv t ≤ s.n
  freshL : ∀ t x, (s.mode t).holds = true → k x = .lock → top x ≤ s.xv t x
  freshR : ∀ t x, (s.mode t).owns = true → k x = .ref → top x ≤ s.xv t x
  relL : a.holder = none → ∀ x, k x = .lock → top x ≤ s.last.view x
  relR : a.ref = none → a.unused = false → ∀ x, k x = .ref → top x ≤ s.last.view x
  zero : ∀ t, s.mode t = .locked → ∀ j, s.dv t ≤ j → j ≤ s.n → isZero (s.d j).val = true →
    a.ref = none ∧ ∀ x, k x = .ref → top x ≤ (s.d j).view x
  busy : ∀ t, s.mode t = .locked → ∀ j, s.dv t ≤ j → j ≤ s.n → isZero (s.d j).val = false → a.busy = true
  hold : ∀ t, (s.mode t).holds = true → ∀ j, s.dv t ≤ j → j ≤ s.n → stateOf (s.d j).val = a.state ∧ locked (s.d j).val = true

theorem same_ldset (w : Desc) : isZero (ldset w) = isZero w ∧ (countOf (ldset w)).toNat = (countOf w).toNat ∧
    stateOf (ldset w) = stateOf w ∧ locked (ldset w) = true := by
  simp [isZero, countOf_ldset, stateOf_ldset, locked_ldset]

theorem same_stclr (w : Desc) : isZero (stclr w) = isZero w ∧ (countOf (stclr w)).toNat = (countOf w).toNat ∧
    stateOf (stclr w) = stateOf w ∧ locked (stclr w) = false := by
  simp [isZero, countOf_stclr, stateOf_stclr, locked_stclr]

theorem same_eor (w r : Desc) (st : BitVec 5) (h : stateOf r = stateOf w) :
    isZero (w ^^^ eorVal r st) = isZero w ∧ (countOf (w ^^^ eorVal r st)).toNat = (countOf w).toNat ∧
    stateOf (w ^^^ eorVal r st) = st ∧ locked (w ^^^ eorVal r st) = locked w := by
  obtain ⟨h1, h2, h3⟩ := eor_state w r st h
  simp [isZero, h1, h2, h3]

theorem count_inc (w : Desc) (h : isZero w = true) : isZero (addCount w 1) = false ∧ (countOf (addCount w 1)).toNat = 1 ∧
    stateOf (addCount w 1) = stateOf w ∧ locked (addCount w 1) = locked w := by
  have h0 : countOf w = 0 := by simpa [isZero] using h
  obtain ⟨h1, h2, h3⟩ := inc_count w 1 (by simp [h0])
  have h1 : (countOf (addCount w 1)).toNat = 1 := by simpa [h0] using h1
  refine ⟨?_, h1, h2, h3⟩
  simp only [isZero, decide_eq_false_iff_not]
  intro hc
  rw [hc] at h1
  simp at h1

theorem count_dec (w : Desc) (h : isZero w = false) (hl : (countOf w).toNat ≤ 1) : isZero (addCount w (-1)) = true ∧
    (countOf (addCount w (-1))).toNat = 0 ∧ stateOf (addCount w (-1)) = stateOf w ∧ locked (addCount w (-1)) = locked w := by
  have h0 : (countOf w).toNat ≠ 0 := by
    intro h1
    have : countOf w = 0 := BitVec.eq_of_toNat_eq (by simpa using h1)
    simp [isZero, this] at h
  obtain ⟨h1, h2, h3⟩ := dec_count w 1 (by omega)
  have h1 : (countOf (addCount w (-1))).toNat = 0 := by
    have : (countOf (addCount w (-1))).toNat = (countOf w).toNat - 1 := h1
    omega
  refine ⟨?_, h1, h2, h3⟩
  simp only [isZero, decide_eq_true_eq]
  exact BitVec.eq_of_toNat_eq (by simpa using h1)

theorem upd_app {A B C : Type} [DecidableEq A] (f : A → B → C) (a : A) (g : B → C) (x : A) (y : B) :
    upd f a g x y = if x = a then g y else f x y := by
  unfold upd; split <;> rfl

omit [DecidableEq X] in
theorem join_true (v w : X → Nat) (x : X) : join true v w x = max (v x) (w x) := rfl

omit [DecidableEq T] [DecidableEq X] [DecidableEq V] in
theorem inv_init (k : X → Kind) (w : Desc) (v : X → V) (hl : locked w = false) (hc : countOf w = 0) :
    Inv k (init w v : St T X V) (Sc.init (stateOf w) v) (fun _ => 0) := by
  constructor <;> simp [init, Sc.init, Mode.holds, Mode.refs, St.last, isZero, hl, hc]

omit [DecidableEq X] [DecidableEq V] in
theorem may_iff {k : X → Kind} {s : St T X V} {a : Sc T X V} {top : X → Nat} (i : Inv k s a top) (t : T) (x : X) :
    may k s t x = a.may k t x := by
  have h1 := i.holder t
  have h2 := i.unused t
  have h3 := i.ref t
  unfold may Sc.may
  cases hk : k x <;> cases hm : s.mode t <;> simp_all [Mode.holds, Mode.owns, Mode.refs]

/-- All instructions order memory as they do in the code. -/
abbrev full : Order := {}

theorem holds_cases (m : Mode) : m.holds = true → m = .locked ∨ m = .own ∨ m = .got := by cases m <;> simp [Mode.holds]

omit [DecidableEq T] [DecidableEq X] [DecidableEq V] in
theorem own_unique {k : X → Kind} {s : St T X V} {a : Sc T X V} {top : X → Nat} (i : Inv k s a top) (t u : T)
    (ht : (s.mode t).owns = true) (hu : (s.mode u).owns = true) : u = t := by
  have a1 := i.holder t
  have a2 := i.holder u
  have b1 := i.ref t
  have b2 := i.ref u
  have c1 := i.own t
  have c2 := i.own u
  cases h1 : s.mode t <;> cases h2 : s.mode u <;> simp_all [Mode.owns, Mode.holds, Mode.refs]

section
variable {k : X → Kind} {s s' : St T X V} {a : Sc T X V} {top : X → Nat} {e : Ev T X V}

set_option hygiene false in
/-- Every clause of the invariant in turn. -/
macro "crunch" : tactic => `(tactic| (
  constructor <;> simp only [St.last, St.push, upd_app, join_true] at * <;> (try simp only [upd] at *) <;>
  first
  | assumption
  | grind [Mode.holds, Mode.refs, Mode.owns, Option.isSome_iff_ne_none, join_true]
  | (intro u hu j' h1 h2 h3
     by_cases hj : j' = s.n + 1
     · subst hj
       simp only [if_true] at h3 ⊢
       grind [Mode.holds, Mode.refs, Mode.owns, join_true]
     · simp only [if_neg hj] at h3 ⊢
       grind [Mode.holds, Mode.refs, Mode.owns])))

theorem step_lock (t : T) (i : Inv k s a top) (h : step full k s (.lock t) = some (s', e)) :
    ∃ b top', a.step k e = some b ∧ Inv k s' b top' := by
  simp only [step] at h
  split at h
  case isFalse => cases h
  case isTrue hc =>
    obtain ⟨hm, hl⟩ := hc
    cases h
    have hh : a.holder = none := by
      have := i.lk; rw [hl] at this; cases h : a.holder
      · rfl
      · rw [h] at this; simp at this
    have hr : a.ref ≠ some t := by intro h; have := (i.ref t).2 h; rw [hm] at this; cases this
    have hnh : ∀ u, (s.mode u).holds = false := by
      intro u; have := i.holder u; rw [hh] at this; cases h : (s.mode u).holds <;> simp_all
    have hnu : a.unused = false := by
      have := i.unheld; rw [hh] at this; cases h : a.unused
      · rfl
      · exact absurd rfl (this h)
    refine ⟨_, top, by simp only [Sc.step]; rw [if_pos ⟨hh, hr⟩], ?_⟩
    obtain ⟨c1, c2, c3, c4⟩ := same_ldset s.last.val
    obtain ⟨i1, i2, i3, i4, i5, i6, i7, i8, i9, i10, i11, i12, i13, i14, i15, i16, i17, i18⟩ := i
    crunch

theorem step_spin (t : T) (i : Inv k s a top) (h : step full k s (.spin t) = some (s', e)) :
    ∃ b top', a.step k e = some b ∧ Inv k s' b top' := by
  simp only [step] at h
  split at h
  case isFalse => cases h
  case isTrue hc =>
    obtain ⟨hm, hl⟩ := hc
    cases h
    refine ⟨_, top, rfl, ?_⟩
    obtain ⟨c1, c2, c3, c4⟩ := same_ldset s.last.val
    have z := fun u hu => i.zero u hu s.n (i.bnd u) (Nat.le_refl _)
    have z2 := fun u hu => i.busy u hu s.n (i.bnd u) (Nat.le_refl _)
    obtain ⟨i1, i2, i3, i4, i5, i6, i7, i8, i9, i10, i11, i12, i13, i14, i15, i16, i17, i18⟩ := i
    crunch

theorem step_peek (t : T) (j : Nat) (i : Inv k s a top) (h : step full k s (.peek t j) = some (s', e)) :
    ∃ b top', a.step k e = some b ∧ Inv k s' b top' := by
  simp only [step] at h
  split at h
  case isFalse => cases h
  case isTrue hc =>
    obtain ⟨hm, hl⟩ := hc
    cases h
    refine ⟨a, top, ?_, ?_⟩
    · split
      case isTrue hh => simp only [Sc.step]; rw [if_pos ⟨(i.holder t).1 hh, (i.hold t hh j hm hl).1⟩]
      case isFalse => rfl
    · obtain ⟨i1, i2, i3, i4, i5, i6, i7, i8, i9, i10, i11, i12, i13, i14, i15, i16, i17, i18⟩ := i
      crunch

theorem step_setState (t : T) (j : Nat) (st : BitVec 5) (i : Inv k s a top) (h : step full k s (.setState t j st) = some (s', e)) :
    ∃ b top', a.step k e = some b ∧ Inv k s' b top' := by
  simp only [step] at h
  split at h
  case isFalse => cases h
  case isTrue hc =>
    obtain ⟨hm, hj, hn⟩ := hc
    cases h
    refine ⟨_, top, by simp only [Sc.step]; rw [if_pos ((i.holder t).1 hm)], ?_⟩
    obtain ⟨c1, c2, c3, c4⟩ := same_eor s.last.val (s.d j).val st (by rw [(i.hold t hm j hj hn).1, i.st])
    have hu : ∀ u, (s.mode u).holds = true → u = t := by
      intro u hu; have h1 := (i.holder u).1 hu; have h2 := (i.holder t).1 hm; rw [h1] at h2; exact Option.some.inj h2
    have z := fun u hu => i.zero u hu s.n (i.bnd u) (Nat.le_refl _)
    have z2 := fun u hu => i.busy u hu s.n (i.bnd u) (Nat.le_refl _)
    obtain ⟨i1, i2, i3, i4, i5, i6, i7, i8, i9, i10, i11, i12, i13, i14, i15, i16, i17, i18⟩ := i
    simp only [St.last] at *
    generalize (s.d s.n).val ^^^ eorVal (s.d j).val st = w at *
    crunch

theorem step_count (t : T) (j : Nat) (i : Inv k s a top) (h : step full k s (.count t j) = some (s', e)) :
    ∃ b top', a.step k e = some b ∧ Inv k s' b top' := by
  simp only [step] at h
  split at h
  case isFalse => cases h
  case isTrue hc =>
    obtain ⟨hm, hj, hn⟩ := hc
    cases h
    have hh : a.holder = some t := (i.holder t).1 (by rw [hm]; rfl)
    have hr : a.ref ≠ some t := by intro h; have := (i.ref t).2 h; rw [hm] at this; cases this
    have z := i.zero t hm j hj hn
    have z2 := i.busy t hm j hj hn
    cases hz : isZero (s.d j).val <;> have h0 := hz <;> simp only [isZero, decide_eq_true_eq, decide_eq_false_iff_not] at h0
    · refine ⟨a, top, ?_, ?_⟩
      · simp only [Sc.step]; rw [if_pos ⟨hh, hr⟩, decide_eq_false h0]; simp [z2 hz]
      · rw [if_neg h0]
        obtain ⟨i1, i2, i3, i4, i5, i6, i7, i8, i9, i10, i11, i12, i13, i14, i15, i16, i17, i18⟩ := i
        crunch
    · refine ⟨{ a with unused := true }, top, ?_, ?_⟩
      · simp [Sc.step, hh, h0, (z hz).1]
      · rw [if_pos h0]
        obtain ⟨z, z3⟩ := z hz
        obtain ⟨i1, i2, i3, i4, i5, i6, i7, i8, i9, i10, i11, i12, i13, i14, i15, i16, i17, i18⟩ := i
        crunch

theorem step_get (t : T) (i : Inv k s a top) (h : step full k s (.get t) = some (s', e)) :
    ∃ b top', a.step k e = some b ∧ Inv k s' b top' := by
  simp only [step] at h
  split at h
  case isFalse => cases h
  case isTrue hm =>
    cases h
    have hh : a.holder = some t := (i.holder t).1 (by rw [hm]; rfl)
    have hu := (i.unused t hh).2 (Or.inl hm)
    have hr := i.own t hm
    refine ⟨_, top, by simp only [Sc.step]; rw [if_pos ⟨hh, hu, hr⟩], ?_⟩
    obtain ⟨c1, c2, c3, c4⟩ := count_inc s.last.val (i.cnt.2 hr)
    obtain ⟨i1, i2, i3, i4, i5, i6, i7, i8, i9, i10, i11, i12, i13, i14, i15, i16, i17, i18⟩ := i
    crunch

theorem step_unlock (t : T) (i : Inv k s a top) (h : step full k s (.unlock t) = some (s', e)) :
    ∃ b top', a.step k e = some b ∧ Inv k s' b top' := by
  simp only [step] at h
  split at h
  case isFalse => cases h
  case isTrue hm =>
    cases h
    have hh : a.holder = some t := (i.holder t).1 hm
    refine ⟨_, top, by simp only [Sc.step]; rw [if_pos hh], ?_⟩
    obtain ⟨c1, c2, c3, c4⟩ := same_stclr s.last.val
    obtain ⟨i1, i2, i3, i4, i5, i6, i7, i8, i9, i10, i11, i12, i13, i14, i15, i16, i17, i18⟩ := i
    rcases holds_cases _ hm with h | h | h
    · rw [if_neg (by rw [h]; simp)]; crunch
    · rw [if_neg (by rw [h]; simp)]; crunch
    · rw [if_pos h]; crunch

theorem step_put (t : T) (i : Inv k s a top) (h : step full k s (.put t) = some (s', e)) :
    ∃ b top', a.step k e = some b ∧ Inv k s' b top' := by
  simp only [step] at h
  split at h
  case isFalse => cases h
  case isTrue hm =>
    cases h
    have hr : a.ref = some t := (i.ref t).1 (by rw [hm]; rfl)
    have hh : a.holder ≠ some t := by intro h; have := (i.holder t).2 h; rw [hm] at this; cases this
    refine ⟨_, top, by simp only [Sc.step]; rw [if_pos ⟨hr, hh⟩], ?_⟩
    have hz : isZero s.last.val = false := by
      have := i.cnt; rw [hr] at this; simpa using this
    obtain ⟨c1, c2, c3, c4⟩ := count_dec s.last.val hz i.le1
    have z := fun u hu => i.zero u hu s.n (i.bnd u) (Nat.le_refl _)
    have z2 := fun u hu => i.busy u hu s.n (i.bnd u) (Nat.le_refl _)
    obtain ⟨i1, i2, i3, i4, i5, i6, i7, i8, i9, i10, i11, i12, i13, i14, i15, i16, i17, i18⟩ := i
    simp only [St.last] at *
    generalize addCount (s.d s.n).val (-1) = w at *
    crunch

omit [DecidableEq T] [DecidableEq X] [DecidableEq V] in
theorem fresh (i : Inv k s a top) (t : T) (x : X) (h : may k s t x = true) : top x ≤ s.xv t x := by
  unfold may at h
  cases hk : k x <;> rw [hk] at h
  · exact i.freshL t x h hk
  · exact i.freshR t x h hk

theorem step_write (t : T) (x : X) (v : V) (ts : Nat) (i : Inv k s a top) (h : step full k s (.write t x v ts) = some (s', e)) :
    ∃ b top', a.step k e = some b ∧ Inv k s' b top' := by
  simp only [step] at h
  split at h
  case isFalse => cases h
  case isTrue hc =>
    obtain ⟨hm, hts, _⟩ := hc
    cases h
    have hf := fresh i t x hm
    have hm' : a.may k t x = true := by rw [← may_iff i]; exact hm
    refine ⟨_, upd top x ts, by simp only [Sc.step]; rw [if_pos hm'], ?_⟩
    have hhd : ∀ y, ∃ tl, upd s.mem x ((ts, v) :: s.mem x) y = (upd top x ts y, if y = x then v else a.mem y) :: tl ∧ ∀ m ∈ tl, m.1 < upd top x ts y := by
      intro y
      obtain ⟨tl, e, hl⟩ := i.hd y
      by_cases hy : y = x
      · subst hy
        refine ⟨s.mem y, by simp [upd], ?_⟩
        rw [e]
        intro m hmm
        simp only [upd, if_true]
        rcases List.mem_cons.1 hmm with h | h
        · rw [h]; simp only; omega
        · have := hl m h; omega
      · refine ⟨tl, by simp [upd, hy, e], ?_⟩
        simpa [upd, hy] using hl
    have i0 := i
    obtain ⟨i1, i2, i3, i4, i5, i6, i7, i8, i9, i10, i11, i12, i13, i14, i15, i16, i17, i18⟩ := i
    have hun := own_unique i0
    unfold may at hm
    cases hk : k x <;> rw [hk] at hm
    · have hh := (i2 t).1 hm
      crunch
    · have hu := fun u => hun t u hm
      have hn : a.ref ≠ none ∨ a.unused = true := by
        cases h1 : s.mode t <;> simp_all [Mode.owns, Mode.refs, Mode.holds] <;> grind [Mode.holds, Mode.refs]
      have hz : ∀ u, s.mode u = .locked → a.ref ≠ none := by
        intro u hu' hr
        rcases hn with h | h
        · exact h hr
        · have e1 := (i2 u).1 (by rw [hu']; rfl)
          have := (i3 u e1).1 h
          rw [hu'] at this
          simp at this
      crunch

theorem step_read (t : T) (x : X) (n : Nat) (i : Inv k s a top) (h : step full k s (.read t x n) = some (s', e)) :
    ∃ b top', a.step k e = some b ∧ Inv k s' b top' := by
  simp only [step] at h
  split at h
  · cases h
  rename_i m hmem
  split at h
  case isFalse => cases h
  case isTrue hc =>
    obtain ⟨hm, hts⟩ := hc
    cases h
    have hf := fresh i t x hm
    have hm' : a.may k t x = true := by rw [← may_iff i]; exact hm
    have hv : m.2 = a.mem x := by
      obtain ⟨tl, e, hl⟩ := i.hd x
      have hin := List.mem_of_getElem? hmem
      rw [e] at hin
      rcases List.mem_cons.1 hin with h | h
      · rw [h]
      · have := hl m h; omega
    refine ⟨a, top, by simp only [Sc.step]; rw [if_pos ⟨hm', hv⟩], ?_⟩
    obtain ⟨i1, i2, i3, i4, i5, i6, i7, i8, i9, i10, i11, i12, i13, i14, i15, i16, i17, i18⟩ := i
    crunch

theorem step_learn (t t' : T) (i : Inv k s a top) (h : step full k s (.learn t t') = some (s', e)) :
    ∃ b top', a.step k e = some b ∧ Inv k s' b top' := by
  simp only [step] at h
  cases h
  refine ⟨a, top, rfl, ?_⟩
  obtain ⟨i1, i2, i3, i4, i5, i6, i7, i8, i9, i10, i11, i12, i13, i14, i15, i16, i17, i18⟩ := i
  crunch

theorem step_sim (c : Act T X V) (i : Inv k s a top) (h : step full k s c = some (s', e)) :
    ∃ b top', a.step k e = some b ∧ Inv k s' b top' := by
  cases c with
  | lock t => exact step_lock t i h
  | spin t => exact step_spin t i h
  | peek t j => exact step_peek t j i h
  | setState t j st => exact step_setState t j st i h
  | count t j => exact step_count t j i h
  | get t => exact step_get t i h
  | unlock t => exact step_unlock t i h
  | put t => exact step_put t i h
  | write t x v ts => exact step_write t x v ts i h
  | read t x n => exact step_read t x n i h
  | learn t t' => exact step_learn t t' i h

end

theorem run_sim {k : X → Kind} {s s' : St T X V} {a : Sc T X V} {top : X → Nat} {cs : List (Act T X V)} {tr : List (Ev T X V)}
    (i : Inv k s a top) (h : run full k s cs = some (s', tr)) : ∃ b top', a.run k tr = some b ∧ Inv k s' b top' := by
  induction cs generalizing s a top tr with
  | nil => simp only [run] at h; cases h; exact ⟨a, top, rfl, i⟩
  | cons c cs ih =>
    simp only [run, Option.bind_eq_some_iff, Option.map_eq_some_iff] at h
    obtain ⟨⟨s1, e⟩, h1, ⟨s2, tr'⟩, h2, h3⟩ := h
    cases h3
    obtain ⟨b, top', hb, i'⟩ := step_sim c i h1
    obtain ⟨b', top'', hb', i''⟩ := ih i' h2
    exact ⟨b', top'', by simp [Sc.run, hb, hb'], i''⟩

end Verif.Weak
