import Verif.Ni.Spec

/-!
# The secrets of a realm do not reach the host or other realms (C53)
-/

namespace Verif.Ni

open Rmm

/-- An execution as the host and the realms in `V` witness it: `ls` what they see happen, `rs` the answers
they get.  Any number of operations that are hidden from them may come in between. -/
inductive Trace (P : Plat) (V : Nat → Bool) : State → List Lab → List Ret → State → Prop where
  | nil {s} : Trace P V s [] [] s
  | hide {s s' u op ret ls rs} : step P s op = some (s', ret) → label P V s op = none →
      Trace P V s' ls rs u → Trace P V s ls rs u
  | see {s s' u op ret l ls rs} : step P s op = some (s', ret) → label P V s op = some l →
      Trace P V s' ls rs u → Trace P V s (l :: ls) (ret :: rs) u

section
variable {P : Plat} {V : Nat → Bool} {s t u s' t' : State} {ret ret' : Ret}

theorem Trace.reach {ls rs} (h : Trace P V s ls rs s') (hs : Reach P s) : Reach P s' := by
  induction h with
  | nil => exact hs
  | hide e _ _ ih => exact ih (.step hs e)
  | see e _ _ ih => exact ih (.step hs e)

theorem Trace.append {ls rs ls' rs'} (h : Trace P V s ls rs s') (h' : Trace P V s' ls' rs' u) :
    Trace P V s (ls ++ ls') (rs ++ rs') u := by
  induction h with
  | nil => exact h'
  | hide e l _ ih => exact .hide e l (ih h')
  | see e l _ ih => exact .see e l (ih h')

/-- What is left of a trace when nothing more is seen. -/
theorem Trace.quiet (hP : PlatOk P) {ls rs} (h : Trace P V s ls rs s') (hs : Reach P s) (hl : ls = []) :
    rs = [] ∧ L V s s' := by
  induction h with
  | nil => exact ⟨rfl, L.refl _⟩
  | hide e l _ ih =>
    obtain ⟨h1, h2⟩ := ih (.step hs e) hl
    exact ⟨h1, (hidden hP hs e l).trans h2⟩
  | see e l _ ih => cases hl

/-- The first thing that is seen in a trace. -/
theorem Trace.first (hP : PlatOk P) {l : Lab} {l0 ls rs} (h : Trace P V s l0 rs s') (hs : Reach P s)
    (hl : l0 = l :: ls) :
    ∃ s1 s2 op ret rs', L V s s1 ∧ Reach P s1 ∧ step P s1 op = some (s2, ret) ∧ label P V s1 op = some l ∧
      Trace P V s2 ls rs' s' ∧ rs = ret :: rs' := by
  induction h with
  | nil => cases hl
  | hide e k _ ih =>
    obtain ⟨s1, s2, op, ret, rs', h1, h2⟩ := ih (.step hs e) hl
    exact ⟨s1, s2, op, ret, rs', (hidden hP hs e k).trans h1, h2⟩
  | @see s s' u op ret l' ls' rs e k h' ih =>
    cases hl
    exact ⟨s, s', op, ret, rs, L.refl _, hs, e, k, h', rfl⟩

theorem trace_L (hP : PlatOk P) : ∀ {ls : List Lab} {rs rs' : List Ret} {s t s' t' : State}, Reach P s → Reach P t →
    L V s t → Trace P V s ls rs s' → Trace P V t ls rs' t' → rs' = rs ∧ L V s' t' := by
  intro ls
  induction ls with
  | nil =>
    intro rs rs' s t s' t' hs ht hL h h'
    obtain ⟨rfl, k⟩ := h.quiet hP hs rfl
    obtain ⟨rfl, k'⟩ := h'.quiet hP ht rfl
    exact ⟨rfl, (k.symm.trans hL).trans k'⟩
  | cons l ls ih =>
    intro rs rs' s t s' t' hs ht hL h h'
    obtain ⟨s1, s2, op, ret, rs1, a1, a2, a3, a4, a5, rfl⟩ := h.first hP hs rfl
    obtain ⟨t1, t2, op', ret', rs2, b1, b2, b3, b4, b5, rfl⟩ := h'.first hP ht rfl
    obtain ⟨rfl, k⟩ := visible hP a2 b2 ((a1.symm.trans hL).trans b1) a3 b3 a4 b4
    obtain ⟨rfl, k'⟩ := ih (.step a2 a3) (.step b2 b3) k a5 b5
    exact ⟨rfl, k'⟩

/-- C53: the host and the realms in `V` learn nothing about the secrets of other realms.  Two executions that start
with the same visible part, and in which they see the same things happen, give them the same answers
and end with the same visible part, whatever the other realms compute, store, keep in registers or extend their
measurements with in the one and in the other. -/
theorem C53_noninterference (hP : PlatOk P) (hs : Reach P s) (ht : Reach P t) (h : Same V s t) {ls : List Lab}
    {rs rs' : List Ret} (e : Trace P V s ls rs s') (e' : Trace P V t ls rs' t') : rs' = rs ∧ Same V s' t' := by
  obtain ⟨h1, h2⟩ := trace_L hP hs ht (L_of_same hP hs ht h) e e'
  exact ⟨h1, same_of_L hP (e.reach hs) (e'.reach ht) h2⟩

/-- C53: an operation of another realm that is not a deliberate exit to the host or a store to the host's
memory changes nothing that is visible. -/
theorem C53_hidden (hP : PlatOk P) (hs : Reach P s) {op : Op} (e : step P s op = some (s', ret))
    (hl : label P V s op = none) : Same V s s' :=
  same_of_L hP hs (.step hs e) (hidden hP hs e hl)

/-- C53: nor do secrets decide whether a command stops the RMM with a failed assertion. -/
theorem C53_assert (hP : PlatOk P) (hs : Reach P s) (ht : Reach P t) (h : Same V s t) {op : Op}
    (ho : ∀ r, op ≠ .psciRequest r) : step P t op = none ↔ step P s op = none :=
  same_none (L_of_same hP hs ht h) ho

/-- C53: for the realms of the coalition the visible part is everything that belongs to them (the
relation of C05). -/
theorem C53_sameRealm (hP : PlatOk P) (hs : Reach P s) (ht : Reach P t) (h : Same V s t) {r : Nat} (hr : V r = true) :
    SameRealm s t r := by
  obtain ⟨_, _, _, hi⟩ := hs.inv hP
  have hv := view_of (L_of_same hP hs ht h)
  have hrd := recRd_of (L_of_same hP hs ht h)
  refine ⟨by rw [h.st], fun k => ⟨h.rem r k hr, by rw [h.rc]⟩, hv r, fun a rp x => h.data r a rp x hr, ?_, ?_, ?_⟩
  · intro x; rw [h.st, hrd]
  · intro x hx hxr
    exact ⟨h.regs x hx (by rw [hxr]; exact hr), by rw [h.rc]⟩
  · intro x y hx hxr hy
    exact ⟨by rw [h.st]; exact (hi.recs x hx).auxSt y hy, h.aux x y hx (by rw [hxr]; exact hr) hy⟩

/-! ## Two executions with different secrets -/

/-- The trace of a list of operations. -/
def traceOf (P : Plat) (V : Nat → Bool) (s : State) : List Op → Option (List Lab × List Ret × State)
  | [] => some ([], [], s)
  | op :: l =>
    match step P s op with
    | none => none
    | some (s', ret) =>
      match traceOf P V s' l with
      | none => none
      | some (ls, rs, u) =>
        match label P V s op with
        | none => some (ls, rs, u)
        | some x => some (x :: ls, ret :: rs, u)

theorem traceOf_trace : ∀ (l : List Op) {s u : State} {ls rs}, traceOf P V s l = some (ls, rs, u) →
    Trace P V s ls rs u := by
  intro l
  induction l with
  | nil => intro s u ls rs e; cases e; exact .nil
  | cons op l ih =>
    intro s u ls rs e
    unfold traceOf at e
    cases h1 : step P s op with
    | none => rw [h1] at e; cases e
    | some x =>
      obtain ⟨s', ret⟩ := x
      rw [h1] at e
      dsimp only at e
      cases h2 : traceOf P V s' l with
      | none => rw [h2] at e; cases e
      | some y =>
        obtain ⟨ls', rs', u'⟩ := y
        rw [h2] at e
        dsimp only at e
        cases h3 : label P V s op with
        | none => rw [h3] at e; cases e; exact .hide h1 h3 (ih h2)
        | some x => rw [h3] at e; cases e; exact .see h1 h3 (ih h2)

end

namespace Demo
open Rmm.Demo

/-- The coalition has a realm of its own (descriptor 128, without memory). -/
def V : Nat → Bool := fun r => r == G 128

/-- Both realms exist and a REC of the other one (descriptor 16) runs. -/
def pre : List Op :=
  all ++ delegates 128 2 ++ [.realmCreate (G 128) (G 1) (rparams (G 129) 8)] ++ enterRun (fun _ => 0)

/-- The REC stores `k`, keeps it in its auxiliary granule, extends a measurement with it, has it in all of its
registers, and leaves. -/
def secret (k : Nat) : List Op :=
  [.realmWrite (G 32) 0 k, .auxWrite (G 32) (G 33) k, .rsiExtend (G 32) 1 k,
   .recRun (G 32) false false (fun _ => BitVec.ofNat 64 k) 0, .recRun (G 32) true false (fun _ => BitVec.ofNat 64 k) 0]

def isPage (c : Content) (k : Nat) : Bool :=
  match c with
  | .page p => p == k
  | _ => false

/-- `k` is in memory, registers and measurements of the realm, and the coalition has seen an exit. -/
def holds (k : Nat) : Option (List Lab × List Ret × State) → Bool
  | some ([.exit r off], _, u) => r == G 32 && !off && isPage (u.mem (G 22)) k && isPage (u.mem (G 33)) k &&
      (recOf u (G 32)).regs 0 == BitVec.ofNat 64 k && (rdOf u (G 16)).rem 1 == [k] && u.st (G 22) == .data
  | _ => false

theorem holds_of {s : State} {l : List Op} {k : Nat} (h : holds k (traceOf plat V s l) = true) :
    ∃ rs u, Trace plat V s [.exit (G 32) false] rs u ∧ u.mem (G 22) = .page k ∧
      (recOf u (G 32)).regs 0 = BitVec.ofNat 64 k ∧ (rdOf u (G 16)).rem 1 = [k] := by
  cases e : traceOf plat V s l with
  | none => rw [e] at h; cases h
  | some x =>
    obtain ⟨ls, rs, u⟩ := x
    rw [e] at h
    unfold holds at h
    split at h
    · rename_i r off rs' u' heq
      cases heq
      simp only [Bool.and_eq_true, beq_iff_eq, Bool.not_eq_eq_eq_not, Bool.not_true] at h
      obtain ⟨⟨⟨⟨⟨⟨rfl, rfl⟩, h1⟩, _⟩, h2⟩, h3⟩, _⟩ := h
      refine ⟨_, _, traceOf_trace l e, ?_, h2, h3⟩
      unfold isPage at h1
      split at h1
      · rename_i p hp; rw [hp, beq_iff_eq.mp h1]
      · cases h1
    · cases h

/-- The hypotheses of `C53_noninterference` are met by two executions that differ in the secret. -/
theorem two_secrets : ∃ s t ls rs rs', Reach plat s ∧ Reach plat t ∧ Trace plat V boot ls rs s ∧
    Trace plat V boot ls rs' t ∧ s.mem (G 22) = .page 7 ∧ t.mem (G 22) = .page 9 ∧
    (recOf s (G 32)).regs 0 = 7 ∧ (recOf t (G 32)).regs 0 = 9 ∧
    (rdOf s (G 16)).rem 1 = [7] ∧ (rdOf t (G 16)).rem 1 = [9] := by
  have h1 : (match traceOf plat V boot pre with
      | some (_, _, u) => holds 7 (traceOf plat V u (secret 7)) && holds 9 (traceOf plat V u (secret 9))
      | none => false) = true := by decide +kernel
  cases e : traceOf plat V boot pre with
  | none => rw [e] at h1; cases h1
  | some x =>
    obtain ⟨ls, rs, u⟩ := x
    rw [e] at h1
    simp only [Bool.and_eq_true] at h1
    obtain ⟨rs1, s, a1, a2, a3, a4⟩ := holds_of h1.1
    obtain ⟨rs2, t, b1, b2, b3, b4⟩ := holds_of h1.2
    have p := traceOf_trace pre e
    have hb : Reach plat boot := .init boot_init
    exact ⟨s, t, _, _, _, (p.append a1).reach hb, (p.append b1).reach hb, p.append a1, p.append b1, a2, b2, a3, b3, a4, b4⟩

/-- The coalition cannot tell them apart. -/
example : ∃ s t, Reach plat s ∧ Reach plat t ∧ Same V s t ∧ s.mem (G 22) = .page 7 ∧ t.mem (G 22) = .page 9 := by
  obtain ⟨s, t, ls, rs, rs', hs, ht, e, e', h1, h2, _⟩ := two_secrets
  have hb : Reach plat boot := .init boot_init
  exact ⟨s, t, hs, ht, (C53_noninterference plat_ok hb hb (same_of_L plat_ok hb hb (L.refl _)) e e').2, h1, h2⟩

end Demo

end Verif.Ni
