import Verif.Basic

/-!
# Control-flow skeletons: which locks, references and buffer slots a handler uses

A handler is abstracted to the order in which it may take and release granule locks,
take and drop references, and map and unmap buffer slots.  Everything else (values,
conditions, the contents of granules) is left open: a condition becomes an unrestricted
choice, a loop an unrestricted number of iterations.  Every execution of the C function
therefore follows one of the traces of its skeleton; a statement about *all* traces of
the skeleton holds for all executions.  The skeletons are in `Verif.Conc.Handlers`.
-/

namespace Verif.Conc

/-- Pointer variables of the handlers that hold a granule. -/
inductive Tag where
  | rd | recg | rec2 | tbl | dat | llt | nxt | aux | gran
  | root (i : Nat)
  deriving DecidableEq, Repr

/-- Class of a granule with respect to the locking rules,
/repo/lib/granule/include/granule_types.h:10-70: `ext` are the states whose address the
Host passes (NS, DELEGATED, RD, REC), the others are reached through other objects. -/
inductive Kind where
  | ext | rtt | dat | aux
  deriving DecidableEq, Repr

/-- How the granule to lock is found. -/
inductive How where
  /-- address passed by the Host, nothing else is locked -/
  | first
  /-- address passed by the Host, above all external granules already locked -/
  | above
  /-- starting-level table of the realm -/
  | root
  /-- concatenated starting-level table, above `llt` and at the same level -/
  | concat
  /-- the table one level below `llt` -/
  | next
  /-- data granule that an entry of `llt` points to -/
  | dat
  /-- auxiliary granule recorded in a REC -/
  | aux
  deriving DecidableEq, Repr

def How.kind : How → Kind
  | .first => .ext
  | .above => .ext
  | .root => .rtt
  | .concat => .rtt
  | .next => .rtt
  | .dat => .dat
  | .aux => .aux

/-- Observable operations. -/
inductive Ev where
  /-- lock taken, granule found in the expected state -/
  | acq (t : Tag) (h : How)
  /-- lock taken, another state found, lock released (`find_lock_granule` failing) -/
  | miss (h : How)
  | rel (t : Tag)
  /-- the state of the locked granule is changed -/
  | trans (t : Tag)
  /-- pointer assignment `u = t; t = NULL` -/
  | mv (t u : Tag)
  /-- a reference that keeps the granule in its state is taken / dropped -/
  | get (t : Tag)
  | put (t : Tag)
  /-- a slot is mapped; the mapped granule is `t`, or one that `t` protects -/
  | map (s : Nat) (t : Tag)
  | unmap (s : Nat)
  /-- Non-secure memory is accessed through `SLOT_NS`: map, copy, unmap -/
  | nsAccess
  deriving DecidableEq, Repr

/-- Skeletons. -/
inductive Prog where
  | nop
  | ev (e : Ev)
  | seq (p q : Prog)
  | alt (p q : Prog)
  | star (p : Prog)
  deriving Repr

/-- The traces of a skeleton. -/
inductive Lang : Prog → List Ev → Prop where
  | nop : Lang .nop []
  | ev (e) : Lang (.ev e) [e]
  | seq {p q v w} : Lang p v → Lang q w → Lang (.seq p q) (v ++ w)
  | altl {p q w} : Lang p w → Lang (.alt p q) w
  | altr {p q w} : Lang q w → Lang (.alt p q) w
  | starNil {p} : Lang (.star p) []
  | starCons {p v w} : Lang p v → Lang (.star p) w → Lang (.star p) (v ++ w)

/-- `SLOT_NS`: /repo/lib/slot_buf/include/buffer.h:19. -/
def slotNs : Nat := 0

/-- What a CPU holds at a point of a trace. -/
structure St where
  /-- granules locked, in the order in which they were locked -/
  held : List (Tag × Kind)
  /-- locked granules whose state has been changed -/
  changed : List Tag
  refs : List Tag
  /-- slots mapped -/
  slots : List Nat
  deriving DecidableEq, Repr

def St.empty : St := ⟨[], [], [], []⟩

def St.holds (s : St) (t : Tag) : Bool := s.held.any (fun x => x.1 == t)

/-- The internal granules locked. -/
def St.inner (s : St) : List (Tag × Kind) := s.held.filter (fun x => x.2 != .ext)

/-- The locking rules of granule_types.h:10-70 for one more lock. -/
def orderOk (s : St) : How → Bool
  | .first => s.held == []
  | .above => s.inner == []
  | .root => s.inner == []
  | .concat => s.inner == [(.llt, .rtt)]
  | .next => s.inner == [(.llt, .rtt)]
  | .dat => s.inner == [(.llt, .rtt)]
  | .aux => s.inner == []

def rename (t u : Tag) (x : Tag × Kind) : Tag × Kind := if x.1 = t then (u, x.2) else x

/-- One operation: `none` is a violation of the rules.

* a lock is taken only in the documented order, never twice, and never after the state of
  a granule that is still locked was changed;
* only a held lock is released, only a held granule changes state;
* a slot is mapped only if it is not in use, by a CPU that holds the lock of, or a
  reference to, the granule (or its protector); only a mapped slot is unmapped. -/
def step (s : St) : Ev → Option St
  | .acq t h =>
    if orderOk s h ∧ ¬ s.holds t ∧ s.changed = [] then
      some { s with held := s.held ++ [(t, h.kind)] } else none
  | .miss h => if orderOk s h ∧ s.changed = [] then some s else none
  | .rel t =>
    if s.holds t then
      some { s with held := s.held.filter (fun x => x.1 != t), changed := s.changed.filter (· != t) }
    else none
  | .trans t =>
    if s.holds t then
      some { s with changed := if s.changed.contains t then s.changed else s.changed ++ [t] }
    else none
  | .mv t u =>
    if s.holds t ∧ ¬ s.holds u ∧ s.changed = [] then some { s with held := s.held.map (rename t u) }
    else none
  | .get t => if s.holds t ∧ ¬ s.refs.contains t then some { s with refs := s.refs ++ [t] } else none
  | .put t => if s.refs.contains t then some { s with refs := s.refs.filter (· != t) } else none
  | .map n t =>
    if ¬ s.slots.contains n ∧ (s.holds t ∨ s.refs.contains t) then
      some { s with slots := s.slots ++ [n] } else none
  | .unmap n =>
    if s.slots.contains n then some { s with slots := s.slots.filter (· != n) } else none
  | .nsAccess => if ¬ s.slots.contains slotNs then some s else none

def run : St → List Ev → Option St
  | s, [] => some s
  | s, e :: w => (step s e).bind fun s' => run s' w

theorem run_append (s : St) (v w : List Ev) : run s (v ++ w) = (run s v).bind fun s' => run s' w := by
  induction v generalizing s with
  | nil => rfl
  | cons e v ih =>
    simp only [List.cons_append, run]
    cases step s e with
    | none => rfl
    | some s' => exact ih s'

/-- Union without repetition. -/
def union (a b : List St) : List St := a ++ b.filter (fun x => ¬ a.contains x)

/-- `f` applied to every state; `none` if one fails. -/
def image (f : St → Option (List St)) : List St → Option (List St)
  | [] => some []
  | s :: l =>
    match f s, image f l with
    | some a, some b => some (union a b)
    | _, _ => none

/-- Candidates for the states reachable by iterating `f`. -/
def iter (f : St → Option (List St)) : Nat → List St → Option (List St)
  | 0, l => some l
  | n + 1, l =>
    match image f l with
    | none => none
    | some l' => iter f n (union l l')

/-- `l` is closed under `f`. -/
def closed (f : St → Option (List St)) (l : List St) : Bool :=
  match image f l with
  | none => false
  | some l' => l'.all (fun x => l.contains x)

/-- All states in which a skeleton started in `s` may end; `none` if a trace violates
the rules. -/
def post : Prog → St → Option (List St)
  | .nop, s => some [s]
  | .ev e, s => (step s e).map fun s' => [s']
  | .seq p q, s => (post p s).bind fun l => image (post q) l
  | .alt p q, s =>
    match post p s, post q s with
    | some a, some b => some (union a b)
    | _, _ => none
  | .star p, s =>
    match iter (post p) 3 [s] with
    | none => none
    | some l => if l.contains s ∧ closed (post p) l then some l else none

theorem mem_union (a b : List St) (x : St) : x ∈ union a b ↔ x ∈ a ∨ x ∈ b := by
  simp only [union, List.mem_append, List.mem_filter, List.contains_eq_mem]
  by_cases h : x ∈ a <;> simp [h]

theorem image_mem (f : St → Option (List St)) :
    ∀ (l : List St) (l' : List St), image f l = some l' →
      ∀ s ∈ l, ∃ a, f s = some a ∧ ∀ x ∈ a, x ∈ l' := by
  intro l
  induction l with
  | nil => intro l' _ s hs; cases hs
  | cons s0 l ih =>
    intro l' h s hs
    rw [image] at h
    cases h1 : f s0 with
    | none => simp [h1] at h
    | some a =>
      cases h2 : image f l with
      | none => simp [h1, h2] at h
      | some b =>
        simp only [h1, h2, Option.some.injEq] at h
        subst h
        rcases List.mem_cons.1 hs with rfl | hs
        · exact ⟨a, h1, fun x hx => (mem_union _ _ _).2 (Or.inl hx)⟩
        · obtain ⟨c, hc, hc2⟩ := ih b h2 s hs
          exact ⟨c, hc, fun x hx => (mem_union _ _ _).2 (Or.inr (hc2 x hx))⟩

/-- Iterating a sound body stays in a closed set. -/
theorem star_sound (p : Prog)
    (ih : ∀ (w : List Ev), Lang p w → ∀ (s : St) (l : List St), post p s = some l →
      ∃ s' ∈ l, run s w = some s')
    (m : List St) (hm : closed (post p) m = true) (w : List Ev) (hw : Lang (.star p) w) :
    ∀ s ∈ m, ∃ s' ∈ m, run s w = some s' := by
  generalize hq : Prog.star p = q at hw
  induction hw with
  | starNil => intro s hs; exact ⟨s, hs, rfl⟩
  | @starCons p' v w hv _ _ ih2 =>
    injection hq with hq
    subst hq
    intro s hs
    have hm' := hm
    unfold closed at hm'
    cases hi : image (post p) m with
    | none => simp [hi] at hm'
    | some m' =>
      simp only [hi, List.all_eq_true, List.contains_eq_mem, decide_eq_true_eq] at hm'
      obtain ⟨a, ha, hal⟩ := image_mem _ _ _ hi s hs
      obtain ⟨s1, hs1, hr1⟩ := ih v hv s a ha
      obtain ⟨s2, hs2, hr2⟩ := ih2 rfl s1 (hm' _ (hal _ hs1))
      exact ⟨s2, hs2, by rw [run_append, hr1]; exact hr2⟩
  | _ => cases hq

/-- Soundness of `post`: every trace of the skeleton respects the rules at every step,
and ends in one of the computed states. -/
theorem post_sound (p : Prog) : ∀ (w : List Ev), Lang p w →
    ∀ (s : St) (l : List St), post p s = some l → ∃ s' ∈ l, run s w = some s' := by
  induction p with
  | nop =>
    intro w hw s l h
    cases hw
    simp only [post, Option.some.injEq] at h; subst h; exact ⟨s, by simp, rfl⟩
  | ev e =>
    intro w hw s l h
    cases hw
    simp only [post, Option.map_eq_some_iff] at h
    obtain ⟨s', h1, rfl⟩ := h
    exact ⟨s', by simp, by simp [run, h1]⟩
  | seq p q ihp ihq =>
    intro w hw s l h
    cases hw with
    | seq hv hw =>
      simp only [post, Option.bind_eq_some_iff] at h
      obtain ⟨m, h1, h2⟩ := h
      obtain ⟨s1, hs1, hr1⟩ := ihp _ hv s m h1
      obtain ⟨a, ha, hal⟩ := image_mem _ _ _ h2 s1 hs1
      obtain ⟨s2, hs2, hr2⟩ := ihq _ hw s1 a ha
      exact ⟨s2, hal _ hs2, by rw [run_append, hr1]; exact hr2⟩
  | alt p q ihp ihq =>
    intro w hw s l h
    simp only [post] at h
    cases h1 : post p s with
    | none => simp [h1] at h
    | some a =>
      cases h2 : post q s with
      | none => simp [h1, h2] at h
      | some b =>
        simp only [h1, h2, Option.some.injEq] at h
        subst h
        cases hw with
        | altl hw =>
          obtain ⟨s', hs, hr⟩ := ihp _ hw s a h1
          exact ⟨s', (mem_union _ _ _).2 (Or.inl hs), hr⟩
        | altr hw =>
          obtain ⟨s', hs, hr⟩ := ihq _ hw s b h2
          exact ⟨s', (mem_union _ _ _).2 (Or.inr hs), hr⟩
  | star p ih =>
    intro w hw s l h
    simp only [post] at h
    cases h1 : iter (post p) 3 [s] with
    | none => simp [h1] at h
    | some m =>
      simp only [h1, Option.ite_none_right_eq_some, Option.some.injEq] at h
      obtain ⟨⟨h2, h3⟩, rfl⟩ := h
      exact star_sound p ih m h3 w hw s (by simpa using h2)

/-- The check: every trace from a CPU that holds nothing respects the rules and ends with
nothing held. -/
def balanced (p : Prog) : Bool :=
  match post p .empty with
  | none => false
  | some l => l.all (fun s => s == .empty)

theorem balanced_sound (p : Prog) (h : balanced p = true) (w : List Ev) (hw : Lang p w) :
    run .empty w = some .empty := by
  unfold balanced at h
  cases hp : post p .empty with
  | none => simp [hp] at h
  | some l =>
    simp only [hp, List.all_eq_true, beq_iff_eq] at h
    obtain ⟨s', hs, hr⟩ := post_sound p w hw .empty l hp
    rw [hr, h s' hs]

end Verif.Conc
