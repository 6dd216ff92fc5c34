import Verif.Conc.Handlers
import Mathlib.Data.Prod.Lex
import Mathlib.Order.WellFounded

/-!
# Several CPUs taking granule locks

CPUs run the skeletons of `Verif.Conc.Handlers`, one command after the other, interleaved
in any order.  The granules of a command are chosen when they are locked; the choice is
restricted only by the way the address is obtained (`okAddr`).

Simplifications: `find_lock_granule` takes the lock and compares the state in one step
here; in the code (lib/granule/include/granule.h:167-179) another CPU may see the lock
taken in between, but nobody can change the state then and the CPU does not wait.
-/

namespace Verif.Conc

/-- What a granule is, as far as locking is concerned: one of the external states, a table
of some level, a data granule or an auxiliary granule. -/
inductive GSt where
  | ext | rtt (lvl : Nat) | dat | aux
  deriving DecidableEq, Repr

/-- A lock held by a CPU. -/
structure Hold where
  tag : Tag
  kind : Kind
  addr : Nat
  lvl : Nat
  deriving DecidableEq, Repr

def gstOf (k : Kind) (lvl : Nat) : GSt :=
  match k with
  | .ext => .ext
  | .rtt => .rtt lvl
  | .dat => .dat
  | .aux => .aux

/-- How the address `a` (and, for tables, the level `lvl`) of a granule to lock relates to
the locks held. -/
def okAddr (h : List Hold) (a lvl : Nat) : How → Prop
  | .above => ∀ x ∈ h, x.kind = .ext → x.addr < a
  | .concat => ∃ x ∈ h, x.tag = .llt ∧ x.addr < a ∧ lvl = x.lvl
  | .next => ∃ x ∈ h, x.tag = .llt ∧ lvl = x.lvl + 1
  | _ => True

/-- One CPU: the trace of the current command so far and the locks it holds. -/
structure Cpu where
  tr : List Ev
  hold : List Hold

/-- All CPUs, the owner of every lock, and what every granule is. -/
structure Mach where
  owner : Nat → Option Nat
  cls : Nat → GSt
  cpu : Nat → Cpu

def setCpu (m : Mach) (i : Nat) (c : Cpu) : Mach :=
  { m with cpu := fun k => if k = i then c else m.cpu k }

/-- `w` is the beginning of an execution of a command. -/
def Legal (w : List Ev) : Prop := ∃ p ∈ commands, ∃ v, Lang p (w ++ v)

def quiet : Ev → Bool
  | .get _ => true
  | .put _ => true
  | .map _ _ => true
  | .unmap _ => true
  | .nsAccess => true
  | _ => false

/-- One step of CPU `i`. -/
inductive Step (m : Mach) (i : Nat) : Mach → Prop where
  | acq (t : Tag) (h : How) (a lvl : Nat)
      (hl : Legal ((m.cpu i).tr ++ [.acq t h])) (ha : okAddr (m.cpu i).hold a lvl h)
      (hf : m.owner a = none) (hc : m.cls a = gstOf h.kind lvl) :
      Step m i { setCpu m i ⟨(m.cpu i).tr ++ [.acq t h], (m.cpu i).hold ++ [⟨t, h.kind, a, lvl⟩]⟩ with
        owner := fun k => if k = a then some i else m.owner k }
  | miss (h : How) (a lvl : Nat)
      (hl : Legal ((m.cpu i).tr ++ [.miss h])) (ha : okAddr (m.cpu i).hold a lvl h)
      (hf : m.owner a = none) :
      Step m i (setCpu m i ⟨(m.cpu i).tr ++ [.miss h], (m.cpu i).hold⟩)
  | rel (x : Hold) (hx : x ∈ (m.cpu i).hold) (hl : Legal ((m.cpu i).tr ++ [.rel x.tag])) :
      Step m i { setCpu m i ⟨(m.cpu i).tr ++ [.rel x.tag],
          (m.cpu i).hold.filter (fun y => y.tag != x.tag)⟩ with
        owner := fun k => if k = x.addr then none else m.owner k }
  | trans (x : Hold) (g : GSt) (hx : x ∈ (m.cpu i).hold)
      (hl : Legal ((m.cpu i).tr ++ [.trans x.tag])) :
      Step m i { setCpu m i ⟨(m.cpu i).tr ++ [.trans x.tag], (m.cpu i).hold⟩ with
        cls := fun k => if k = x.addr then g else m.cls k }
  | mv (t u : Tag) (hl : Legal ((m.cpu i).tr ++ [.mv t u])) :
      Step m i (setCpu m i ⟨(m.cpu i).tr ++ [.mv t u],
        (m.cpu i).hold.map (fun x => if x.tag = t then { x with tag := u } else x)⟩)
  | other (e : Ev) (he : quiet e = true) (hl : Legal ((m.cpu i).tr ++ [e])) :
      Step m i (setCpu m i ⟨(m.cpu i).tr ++ [e], (m.cpu i).hold⟩)
  /-- the command is complete, the next one begins -/
  | done (p : Prog) (hp : p ∈ commands) (hl : Lang p (m.cpu i).tr) :
      Step m i (setCpu m i ⟨[], (m.cpu i).hold⟩)

/-- Executions: any interleaving, from a state in which no CPU is in a command. -/
inductive Reach : Mach → Prop where
  | init (m : Mach) (ho : ∀ a, m.owner a = none) (hc : ∀ i, m.cpu i = ⟨[], []⟩) : Reach m
  | step {m m' : Mach} (i : Nat) : Reach m → Step m i m' → Reach m'

/-! ## Invariant -/

structure CpuOk (m : Mach) (i : Nat) (s : St) : Prop where
  run : run .empty (m.cpu i).tr = some s
  held : s.held = (m.cpu i).hold.map (fun x => (x.tag, x.kind))
  tags : ((m.cpu i).hold.map (fun x => x.tag)).Nodup
  addrs : ((m.cpu i).hold.map (fun x => x.addr)).Nodup
  own : ∀ x ∈ (m.cpu i).hold, m.owner x.addr = some i
  cls : ∀ x ∈ (m.cpu i).hold, x.tag ∉ s.changed → m.cls x.addr = gstOf x.kind x.lvl

structure MOk (m : Mach) : Prop where
  cpu : ∀ i, ∃ s, CpuOk m i s
  held : ∀ a i, m.owner a = some i → ∃ x ∈ (m.cpu i).hold, x.addr = a

theorem legal_run (w : List Ev) (h : Legal w) : ∃ s, run .empty w = some s := by
  obtain ⟨p, hp, v, hl⟩ := h
  have hb := balanced_sound p (commands_balanced p hp) _ hl
  rw [run_append] at hb
  cases hr : run .empty w with
  | none => rw [hr] at hb; simp at hb
  | some s => exact ⟨s, rfl⟩

theorem legal_step (w : List Ev) (e : Ev) (h : Legal (w ++ [e])) (s : St) (hs : run .empty w = some s) :
    ∃ s', step s e = some s' ∧ run .empty (w ++ [e]) = some s' := by
  obtain ⟨s', h'⟩ := legal_run _ h
  refine ⟨s', ?_, h'⟩
  rw [run_append, hs] at h'
  simp only [Option.bind_some, run] at h'
  cases hst : step s e with
  | none => rw [hst] at h'; simp at h'
  | some s2 => rw [hst] at h'; simpa using h'

theorem holds_iff (s : St) (l : List Hold) (h : s.held = l.map (fun x => (x.tag, x.kind))) (t : Tag) :
    s.holds t = true ↔ ∃ x ∈ l, x.tag = t := by
  simp [St.holds, h]

theorem cpu_same (m : Mach) (i : Nat) (c : Cpu) : (setCpu m i c).cpu i = c := if_pos rfl
theorem cpu_other (m : Mach) (i j : Nat) (c : Cpu) (h : j ≠ i) : (setCpu m i c).cpu j = m.cpu j :=
  if_neg h

/-- Another CPU is not affected if its locks and the class of its granules are untouched. -/
theorem other_ok (m m' : Mach) (j : Nat) (s : St) (h : CpuOk m j s) (hc : m'.cpu j = m.cpu j)
    (ho : ∀ x ∈ (m.cpu j).hold, m'.owner x.addr = m.owner x.addr)
    (hcl : ∀ x ∈ (m.cpu j).hold, m'.cls x.addr = m.cls x.addr) : CpuOk m' j s := by
  refine ⟨by rw [hc]; exact h.run, by rw [hc]; exact h.held, by rw [hc]; exact h.tags,
    by rw [hc]; exact h.addrs, ?_, ?_⟩
  · intro x hx; rw [hc] at hx; rw [ho x hx]; exact h.own x hx
  · intro x hx hn; rw [hc] at hx; rw [hcl x hx]; exact h.cls x hx hn

theorem eq_of_tag {l : List Hold} (h : (l.map (fun x => x.tag)).Nodup) {x y : Hold} (hx : x ∈ l)
    (hy : y ∈ l) (e : x.tag = y.tag) : x = y := by
  induction l with
  | nil => cases hx
  | cons a l ih =>
    rw [List.map_cons, List.nodup_cons] at h
    rcases List.mem_cons.1 hx with rfl | hx'
    · rcases List.mem_cons.1 hy with rfl | hy'
      · rfl
      · exact absurd (List.mem_map.2 ⟨y, hy', e.symm⟩) h.1
    · rcases List.mem_cons.1 hy with rfl | hy'
      · exact absurd (List.mem_map.2 ⟨x, hx', e⟩) h.1
      · exact ih h.2 hx' hy'

theorem eq_of_addr {l : List Hold} (h : (l.map (fun x => x.addr)).Nodup) {x y : Hold} (hx : x ∈ l)
    (hy : y ∈ l) (e : x.addr = y.addr) : x = y := by
  induction l with
  | nil => cases hx
  | cons a l ih =>
    rw [List.map_cons, List.nodup_cons] at h
    rcases List.mem_cons.1 hx with rfl | hx'
    · rcases List.mem_cons.1 hy with rfl | hy'
      · rfl
      · exact absurd (List.mem_map.2 ⟨y, hy', e.symm⟩) h.1
    · rcases List.mem_cons.1 hy with rfl | hy'
      · exact absurd (List.mem_map.2 ⟨x, hx', e⟩) h.1
      · exact ih h.2 hx' hy'

/-- A step that only extends the trace keeps the invariant. -/
theorem quiet_ok (m : Mach) (i : Nat) (tr : List Ev) (h : MOk m) (s s' : St) (hs : CpuOk m i s)
    (hr : run .empty tr = some s') (hh : s'.held = s.held) (hch : ∀ t, t ∈ s.changed → t ∈ s'.changed) :
    MOk (setCpu m i ⟨tr, (m.cpu i).hold⟩) := by
  refine ⟨?_, ?_⟩
  · intro j
    by_cases hj : j = i
    · subst hj
      refine ⟨s', ?_, ?_, ?_, ?_, ?_, ?_⟩
      · rw [cpu_same]; exact hr
      · rw [cpu_same, hh]; exact hs.held
      · rw [cpu_same]; exact hs.tags
      · rw [cpu_same]; exact hs.addrs
      · rw [cpu_same]; exact hs.own
      · rw [cpu_same]; intro x hx hn; exact hs.cls x hx (fun hc => hn (hch _ hc))
    · obtain ⟨sj, hsj⟩ := h.cpu j
      exact ⟨sj, other_ok m _ j sj hsj (cpu_other _ _ _ _ hj) (fun _ _ => rfl) (fun _ _ => rfl)⟩
  · intro a j ho
    obtain ⟨x, hx, ha⟩ := h.held a j ho
    by_cases hj : j = i
    · subst hj; exact ⟨x, by rw [cpu_same]; exact hx, ha⟩
    · exact ⟨x, by rw [cpu_other _ _ _ _ hj]; exact hx, ha⟩

theorem step_ok (m m' : Mach) (i : Nat) (h : MOk m) (hst : Step m i m') : MOk m' := by
  obtain ⟨s, hs⟩ := h.cpu i
  cases hst with
  | acq t hw a lvl hl ha hf hc =>
    obtain ⟨s', h1, h2⟩ := legal_step _ _ hl s hs.run
    simp only [step] at h1
    split at h1
    case isFalse => cases h1
    case isTrue hcond =>
    injection h1 with h1
    have hnew : ∀ x ∈ (m.cpu i).hold, x.addr ≠ a := by
      intro x hx he
      have := hs.own x hx
      rw [he, hf] at this; cases this
    have hnt : ∀ x ∈ (m.cpu i).hold, x.tag ≠ t := by
      intro x hx he
      exact hcond.2.1 ((holds_iff s _ hs.held t).2 ⟨x, hx, he⟩)
    refine ⟨?_, ?_⟩
    · intro j
      by_cases hj : j = i
      · subst hj
        refine ⟨s', ?_, ?_, ?_, ?_, ?_, ?_⟩
        · show run .empty ((setCpu m j _).cpu j).tr = _
          rw [cpu_same]; exact h2
        · show s'.held = ((setCpu m j _).cpu j).hold.map _
          rw [cpu_same, ← h1]
          simp [hs.held]
        · show (((setCpu m j _).cpu j).hold.map _).Nodup
          rw [cpu_same]
          simp only [List.map_append, List.map_cons, List.map_nil]
          rw [List.nodup_append]
          refine ⟨hs.tags, by simp, ?_⟩
          intro b hb c hc
          simp only [List.mem_cons, List.not_mem_nil, or_false] at hc
          obtain ⟨x, hx, rfl⟩ := List.mem_map.1 hb
          rw [hc]; exact hnt x hx
        · show (((setCpu m j _).cpu j).hold.map _).Nodup
          rw [cpu_same]
          simp only [List.map_append, List.map_cons, List.map_nil]
          rw [List.nodup_append]
          refine ⟨hs.addrs, by simp, ?_⟩
          intro b hb c hc
          simp only [List.mem_cons, List.not_mem_nil, or_false] at hc
          obtain ⟨x, hx, rfl⟩ := List.mem_map.1 hb
          rw [hc]; exact hnew x hx
        · intro x hx
          change x ∈ ((setCpu m j _).cpu j).hold at hx
          rw [cpu_same] at hx
          show (if x.addr = a then some j else m.owner x.addr) = some j
          rcases List.mem_append.1 hx with hx | hx
          · rw [if_neg (hnew x hx)]; exact hs.own x hx
          · simp only [List.mem_cons, List.not_mem_nil, or_false] at hx
            subst hx; exact if_pos rfl
        · intro x hx hn
          change x ∈ ((setCpu m j _).cpu j).hold at hx
          rw [cpu_same] at hx
          show m.cls x.addr = _
          rcases List.mem_append.1 hx with hx | hx
          · refine hs.cls x hx ?_
            rw [hcond.2.2]; simp
          · simp only [List.mem_cons, List.not_mem_nil, or_false] at hx
            subst hx; exact hc
      · obtain ⟨sj, hsj⟩ := h.cpu j
        refine ⟨sj, other_ok m _ j sj hsj (cpu_other _ _ _ _ hj) ?_ (fun _ _ => rfl)⟩
        intro x hx
        have hne : x.addr ≠ a := by
          intro he
          have := hsj.own x hx
          rw [he, hf] at this; cases this
        exact if_neg hne
    · intro b j ho
      change (if b = a then some i else m.owner b) = some j at ho
      by_cases hb : b = a
      · rw [if_pos hb] at ho
        injection ho with ho
        subst ho
        refine ⟨⟨t, hw.kind, a, lvl⟩, ?_, hb.symm⟩
        show _ ∈ ((setCpu m i _).cpu i).hold
        rw [cpu_same]; simp
      · rw [if_neg hb] at ho
        obtain ⟨x, hx, hxa⟩ := h.held b j ho
        refine ⟨x, ?_, hxa⟩
        show _ ∈ ((setCpu m i _).cpu j).hold
        by_cases hj : j = i
        · subst hj; rw [cpu_same]; exact List.mem_append_left _ hx
        · rw [cpu_other _ _ _ _ hj]; exact hx
  | miss hw a lvl hl ha hf =>
    obtain ⟨s', h1, h2⟩ := legal_step _ _ hl s hs.run
    simp only [step] at h1
    split at h1
    case isFalse => cases h1
    case isTrue hcond =>
    injection h1 with h1
    subst h1
    exact quiet_ok m i _ h s s hs h2 rfl (fun _ h => h)
  | rel x hx hl =>
    obtain ⟨s', h1, h2⟩ := legal_step _ _ hl s hs.run
    simp only [step] at h1
    split at h1
    case isFalse => cases h1
    case isTrue hcond =>
    injection h1 with h1
    refine ⟨?_, ?_⟩
    · intro j
      by_cases hj : j = i
      · subst hj
        refine ⟨s', ?_, ?_, ?_, ?_, ?_, ?_⟩
        · show run .empty ((setCpu m j _).cpu j).tr = _
          rw [cpu_same]; exact h2
        · show s'.held = ((setCpu m j _).cpu j).hold.map _
          rw [cpu_same, ← h1]
          simp only [hs.held, List.filter_map]
          rfl
        · show (((setCpu m j _).cpu j).hold.map _).Nodup
          rw [cpu_same]
          exact hs.tags.sublist (List.Sublist.map _ List.filter_sublist)
        · show (((setCpu m j _).cpu j).hold.map _).Nodup
          rw [cpu_same]
          exact hs.addrs.sublist (List.Sublist.map _ List.filter_sublist)
        · intro y hy
          change y ∈ ((setCpu m j _).cpu j).hold at hy
          rw [cpu_same] at hy
          simp only [List.mem_filter, bne_iff_ne, ne_eq] at hy
          show (if y.addr = x.addr then none else m.owner y.addr) = some j
          have hne : y.addr ≠ x.addr := fun he => hy.2 (by rw [eq_of_addr hs.addrs hy.1 hx he])
          rw [if_neg hne]; exact hs.own y hy.1
        · intro y hy hn
          change y ∈ ((setCpu m j _).cpu j).hold at hy
          rw [cpu_same] at hy
          simp only [List.mem_filter, bne_iff_ne, ne_eq] at hy
          show m.cls y.addr = _
          refine hs.cls y hy.1 ?_
          intro hc
          refine hn ?_
          rw [← h1]
          simp only [List.mem_filter, bne_iff_ne, ne_eq]
          exact ⟨hc, hy.2⟩
      · obtain ⟨sj, hsj⟩ := h.cpu j
        refine ⟨sj, other_ok m _ j sj hsj (cpu_other _ _ _ _ hj) ?_ (fun _ _ => rfl)⟩
        intro y hy
        have hne : y.addr ≠ x.addr := by
          intro he
          have h1 := hsj.own y hy
          have h2 := hs.own x hx
          rw [he, h2] at h1
          injection h1 with h1
          exact hj h1.symm
        exact if_neg hne
    · intro b j ho
      change (if b = x.addr then none else m.owner b) = some j at ho
      by_cases hb : b = x.addr
      · rw [if_pos hb] at ho; cases ho
      · rw [if_neg hb] at ho
        obtain ⟨y, hy, hya⟩ := h.held b j ho
        refine ⟨y, ?_, hya⟩
        show _ ∈ ((setCpu m i _).cpu j).hold
        by_cases hj : j = i
        · subst hj; rw [cpu_same]
          simp only [List.mem_filter, bne_iff_ne, ne_eq]
          refine ⟨hy, fun he => hb ?_⟩
          rw [← hya, eq_of_tag hs.tags hy hx he]
        · rw [cpu_other _ _ _ _ hj]; exact hy
  | trans x g hx hl =>
    obtain ⟨s', h1, h2⟩ := legal_step _ _ hl s hs.run
    simp only [step] at h1
    split at h1
    case isFalse => cases h1
    case isTrue hcond =>
    injection h1 with h1
    refine ⟨?_, ?_⟩
    · intro j
      by_cases hj : j = i
      · subst hj
        refine ⟨s', ?_, ?_, ?_, ?_, ?_, ?_⟩
        · show run .empty ((setCpu m j _).cpu j).tr = _
          rw [cpu_same]; exact h2
        · show s'.held = ((setCpu m j _).cpu j).hold.map _
          rw [cpu_same, ← h1]; exact hs.held
        · show (((setCpu m j _).cpu j).hold.map _).Nodup
          rw [cpu_same]; exact hs.tags
        · show (((setCpu m j _).cpu j).hold.map _).Nodup
          rw [cpu_same]; exact hs.addrs
        · intro y hy
          change y ∈ ((setCpu m j _).cpu j).hold at hy
          rw [cpu_same] at hy
          exact hs.own y hy
        · intro y hy hn
          change y ∈ ((setCpu m j _).cpu j).hold at hy
          rw [cpu_same] at hy
          have hin : x.tag ∈ s'.changed ∧ ∀ t ∈ s.changed, t ∈ s'.changed := by
            rw [← h1]
            by_cases hc : s.changed.contains x.tag = true
            · simp only [hc, if_true]
              exact ⟨by simpa using hc, fun t h => h⟩
            · simp only [if_neg hc]
              exact ⟨by simp, fun t h => List.mem_append_left _ h⟩
          have hne : y.addr ≠ x.addr := by
            intro he
            rw [eq_of_addr hs.addrs hy hx he] at hn
            exact hn hin.1
          show (if y.addr = x.addr then g else m.cls y.addr) = _
          rw [if_neg hne]
          exact hs.cls y hy (fun hc => hn (hin.2 _ hc))
      · obtain ⟨sj, hsj⟩ := h.cpu j
        refine ⟨sj, other_ok m _ j sj hsj (cpu_other _ _ _ _ hj) (fun _ _ => rfl) ?_⟩
        intro y hy
        have hne : y.addr ≠ x.addr := by
          intro he
          have h1 := hsj.own y hy
          have h2 := hs.own x hx
          rw [he, h2] at h1
          injection h1 with h1
          exact hj h1.symm
        exact if_neg hne
    · intro b j ho
      obtain ⟨y, hy, hya⟩ := h.held b j ho
      refine ⟨y, ?_, hya⟩
      show _ ∈ ((setCpu m i _).cpu j).hold
      by_cases hj : j = i
      · subst hj; rw [cpu_same]; exact hy
      · rw [cpu_other _ _ _ _ hj]; exact hy
  | mv t u hl =>
    obtain ⟨s', h1, h2⟩ := legal_step _ _ hl s hs.run
    simp only [step] at h1
    split at h1
    case isFalse => cases h1
    case isTrue hcond =>
    injection h1 with h1
    let f : Hold → Hold := fun x => if x.tag = t then { x with tag := u } else x
    have haddr : ∀ x, (f x).addr = x.addr := by
      intro x; show (if x.tag = t then ({ x with tag := u } : Hold) else x).addr = _; split <;> rfl
    have hkind : ∀ x, (f x).kind = x.kind ∧ (f x).lvl = x.lvl := by
      intro x
      show (if x.tag = t then ({ x with tag := u } : Hold) else x).kind = _ ∧
        (if x.tag = t then ({ x with tag := u } : Hold) else x).lvl = _
      split <;> exact ⟨rfl, rfl⟩
    have htag : ∀ x, (f x).tag = if x.tag = t then u else x.tag := by
      intro x; show (if x.tag = t then ({ x with tag := u } : Hold) else x).tag = _; split <;> rfl
    have hnu : ∀ x ∈ (m.cpu i).hold, x.tag ≠ u := by
      intro x hx he
      exact hcond.2.1 ((holds_iff s _ hs.held u).2 ⟨x, hx, he⟩)
    have hch : s'.changed = [] := by rw [← h1]; exact hcond.2.2
    refine ⟨?_, ?_⟩
    · intro j
      by_cases hj : j = i
      · subst hj
        refine ⟨s', ?_, ?_, ?_, ?_, ?_, ?_⟩
        · rw [cpu_same]; exact h2
        · rw [cpu_same, ← h1]
          simp only [hs.held, List.map_map]
          refine List.map_congr_left ?_
          intro x _
          simp only [Function.comp, rename]
          split <;> rfl
        · rw [cpu_same]
          show (((m.cpu j).hold.map f).map (fun x => x.tag)).Nodup
          rw [List.map_map]
          have hnd := hs.tags
          rw [List.Nodup, List.pairwise_map] at hnd ⊢
          refine List.Pairwise.imp_of_mem ?_ hnd
          intro x y hx hy hxy
          show (f x).tag ≠ (f y).tag
          rw [htag, htag]
          by_cases h1 : x.tag = t
          · by_cases h2 : y.tag = t
            · exact absurd (h1.trans h2.symm) hxy
            · rw [if_pos h1, if_neg h2]; exact (hnu y hy).symm
          · by_cases h2 : y.tag = t
            · rw [if_neg h1, if_pos h2]; exact hnu x hx
            · rw [if_neg h1, if_neg h2]; exact hxy
        · rw [cpu_same]
          show (((m.cpu j).hold.map f).map (fun x => x.addr)).Nodup
          rw [List.map_map]
          have : (fun x : Hold => x.addr) ∘ f = fun x => x.addr := funext haddr
          rw [this]; exact hs.addrs
        · rw [cpu_same]
          intro x hx
          obtain ⟨y, hy, rfl⟩ := List.mem_map.1 hx
          show m.owner (f y).addr = _
          rw [haddr]; exact hs.own y hy
        · rw [cpu_same]
          intro x hx hn
          obtain ⟨y, hy, rfl⟩ := List.mem_map.1 hx
          show m.cls (f y).addr = gstOf (f y).kind (f y).lvl
          rw [haddr, (hkind y).1, (hkind y).2]
          refine hs.cls y hy ?_
          rw [hcond.2.2]; simp
      · obtain ⟨sj, hsj⟩ := h.cpu j
        exact ⟨sj, other_ok m _ j sj hsj (cpu_other _ _ _ _ hj) (fun _ _ => rfl) (fun _ _ => rfl)⟩
    · intro b j ho
      obtain ⟨y, hy, hya⟩ := h.held b j ho
      by_cases hj : j = i
      · subst hj
        refine ⟨f y, ?_, (haddr y).trans hya⟩
        rw [cpu_same]; exact List.mem_map.2 ⟨y, hy, rfl⟩
      · exact ⟨y, by rw [cpu_other _ _ _ _ hj]; exact hy, hya⟩
  | other e he hl =>
    obtain ⟨s', h1, h2⟩ := legal_step _ _ hl s hs.run
    have hk : s'.held = s.held ∧ s'.changed = s.changed := by
      cases e <;> simp only [quiet, Bool.false_eq_true] at he <;> simp only [step] at h1 <;>
        split at h1 <;> first | (injection h1 with h1; subst h1; exact ⟨rfl, rfl⟩) | cases h1
    exact quiet_ok m i _ h s s' hs h2 hk.1 (fun t ht => by rw [hk.2]; exact ht)
  | done p hp hl =>
    have hb := balanced_sound p (commands_balanced p hp) _ hl
    have he : s = .empty := by
      have := hs.run; rw [hb] at this; injection this with this; exact this.symm
    subst he
    exact quiet_ok m i _ h _ .empty hs rfl rfl (fun _ h => h)

theorem reach_ok (m : Mach) (h : Reach m) : MOk m := by
  induction h with
  | init m ho hc =>
    refine ⟨fun i => ⟨.empty, ?_⟩, fun a i h => by rw [ho a] at h; cases h⟩
    refine ⟨by rw [hc i]; rfl, by rw [hc i]; rfl, by rw [hc i]; simp, by rw [hc i]; simp, ?_, ?_⟩
    · intro x hx; rw [hc i] at hx; cases hx
    · intro x hx; rw [hc i] at hx; cases hx
  | step i _ hst ih => exact step_ok _ _ i ih hst

end Verif.Conc
