import Verif.Desc.Model

/-!
# Entry-level and word-level states

`Rel a c` relates a state of the entry-level machine (`Verif.Rmm`) to one of the
word-level machine: everything outside tables is equal, and every word of every
table is the descriptor of the entry.
-/

namespace Verif.Desc

open Rmm (State Plat Ret Rd GSt Walk Content Tlbi upd lk getRd getRec getTab idx sz rootFor dOf Entry InvG rdOf tabOf)
open S2tte

/-- Forget the entries of a table. -/
def stripC : Content → Content
  | .table _ => mark
  | .page p => .page p
  | .rd r => .rd r
  | .recd r => .recd r

/-- Forget the entries of all tables. -/
def strip (a : State) : State := { a with mem := fun g => stripC (a.mem g) }

/-- The relation.  Ghost data: for each table whether its realm uses LPA2 (`lp`) and its depth (`dp`). -/
structure Rel (a : State) (c : CState) (lp : Nat → Bool) (dp : Nat → Nat) : Prop where
  same : c.s = strip a
  ent : ∀ g t, a.mem g = .table t → ∀ i < 512, Enc (lp g) (dp g) (t i) (c.tw g i)
  root : ∀ x r, a.mem x = .rd r → ∀ j < r.nroots,
    lp (r.root + 4096 * j) = r.lpa2 ∧ dp (r.root + 4096 * j) = r.d0
  link : ∀ g t, a.mem g = .table t → ∀ i < 512, ∀ k, t i = .table k → lp k = lp g ∧ dp k + 1 = dp g

/-- The word-level state refines the entry-level state. -/
def Refines (a : State) (c : CState) : Prop := ∃ lp dp, Rel a c lp dp

/-- Two outcomes agree: both are failed assertions, or the registers are equal and the states related. -/
def Sim (x : Rmm.Out) (y : COut) : Prop :=
  (x = none ∧ y = none) ∨ ∃ a c r, x = some (a, r) ∧ y = some (c, r) ∧ Refines a c

theorem Sim.none : Sim none none := Or.inl ⟨rfl, rfl⟩
theorem Sim.some {a : State} {c : CState} {r r' : Ret} (h : Refines a c) (e : r = r') :
    Sim (some (a, r)) (some (c, r')) := Or.inr ⟨a, c, r, rfl, by rw [e], h⟩

section strip
variable (a : State)

theorem lk_strip (P : Plat) (x : Nat) (e : GSt) : lk P (strip a) x e = lk P a x e := rfl

theorem getRd_strip (x : Nat) : getRd (strip a) x = getRd a x := by
  unfold getRd strip; dsimp only; cases a.mem x <;> rfl

theorem getRec_strip (x : Nat) : getRec (strip a) x = getRec a x := by
  unfold getRec strip; dsimp only; cases a.mem x <;> rfl

theorem tabW_strip {c : CState} (h : c.s = strip a) (g : Nat) :
    tabW c g = (getTab a g).map fun _ => c.tw g := by
  unfold tabW getTab; rw [h]; unfold strip; dsimp only; cases a.mem g <;> rfl

theorem strip_upd (m : Nat → Content) (g : Nat) (v : Content) :
    (fun x => stripC (upd m g v x)) = upd (fun x => stripC (m x)) g (stripC v) := by
  funext x; unfold upd; split <;> rfl

end strip

section
variable {P : Plat} {a : State} {c : CState} {lp : Nat → Bool} {dp : Nat → Nat}
variable {ti : Nat → Rmm.TabInfo} {di : Nat → Nat × Nat} {rl : Nat → List Nat}

/-- Nothing but fields outside memory changes. -/
theorem Rel.of_mem (R : Rel a c lp dp) {a' : State} {c' : CState} (h1 : a'.mem = a.mem)
    (h2 : c'.s = strip a') (h3 : c'.tw = c.tw) : Rel a' c' lp dp := by
  refine ⟨h2, ?_, ?_, ?_⟩
  · rw [h1, h3]; exact R.ent
  · rw [h1]; exact R.root
  · rw [h1]; exact R.link

/-- Tables stay, or go; realm descriptors keep their geometry. -/
theorem Rel.keep (R : Rel a c lp dp) {a' : State} {c' : CState} (h2 : c'.s = strip a') (h3 : c'.tw = c.tw)
    (ht : ∀ g t, a'.mem g = .table t → a.mem g = .table t)
    (hr : ∀ x r', a'.mem x = .rd r' → ∃ r, a.mem x = .rd r ∧ r'.nroots = r.nroots ∧ r'.root = r.root ∧
      r'.lpa2 = r.lpa2 ∧ r'.d0 = r.d0) : Rel a' c' lp dp := by
  refine ⟨h2, ?_, ?_, ?_⟩
  · intro g t hg; rw [h3]; exact R.ent g t (ht g t hg)
  · intro x r' hx j hj
    obtain ⟨r, h4, h5, h6, h7, h8⟩ := hr x r' hx
    rw [h6, h7, h8]; exact R.root x r h4 j (by omega)
  · intro g t hg; exact R.link g t (ht g t hg)

/-- A granule that becomes a page. -/
theorem Rel.page (R : Rel a c lp dp) (x : Nat) (p : Rmm.Page) :
    Rel { a with mem := upd a.mem x (.page p) } { c with s := { c.s with mem := upd c.s.mem x (.page p) } } lp dp := by
  apply R.keep
  · dsimp only; rw [R.same]; unfold strip; dsimp only; rw [strip_upd]; rfl
  · rfl
  · intro g t h; dsimp only at h; unfold upd at h; split at h
    · cases h
    · exact h
  · intro g r h; dsimp only at h; unfold upd at h; split at h
    · cases h
    · exact ⟨r, h, rfl, rfl, rfl, rfl⟩

/-- A granule that becomes, or is, a REC. -/
theorem Rel.recd (R : Rel a c lp dp) (x : Nat) (q : Rmm.Rec) :
    Rel { a with mem := upd a.mem x (.recd q) } { c with s := { c.s with mem := upd c.s.mem x (.recd q) } } lp dp := by
  apply R.keep
  · dsimp only; rw [R.same]; unfold strip; dsimp only; rw [strip_upd]; rfl
  · rfl
  · intro g t h; dsimp only at h; unfold upd at h; split at h
    · cases h
    · exact h
  · intro g r h; dsimp only at h; unfold upd at h; split at h
    · cases h
    · exact ⟨r, h, rfl, rfl, rfl, rfl⟩

/-- A realm descriptor with the same geometry. -/
theorem Rel.rd (R : Rel a c lp dp) (x : Nat) {r r' : Rd} (hx : a.mem x = .rd r)
    (h : r'.nroots = r.nroots ∧ r'.root = r.root ∧ r'.lpa2 = r.lpa2 ∧ r'.d0 = r.d0) :
    Rel { a with mem := upd a.mem x (.rd r') } { c with s := { c.s with mem := upd c.s.mem x (.rd r') } } lp dp := by
  apply R.keep
  · dsimp only; rw [R.same]; unfold strip; dsimp only; rw [strip_upd]; rfl
  · rfl
  · intro g t h; dsimp only at h; unfold upd at h; split at h
    · cases h
    · exact h
  · intro g r2 h2; dsimp only at h2; unfold upd at h2; split at h2
    · cases h2; subst_vars; exact ⟨r, hx, h⟩
    · exact ⟨r2, h2, rfl, rfl, rfl, rfl⟩

/-- New entries in a table. -/
theorem Rel.tab (R : Rel a c lp dp) (g : Nat) (t : Nat → Entry) (tw : Nat → W)
    (he : ∀ i < 512, Enc (lp g) (dp g) (t i) (tw i))
    (hl : ∀ i < 512, ∀ k, t i = .table k → lp k = lp g ∧ dp k + 1 = dp g) :
    Rel { a with mem := upd a.mem g (.table t) } (setTab c g tw) lp dp := by
  refine ⟨?_, ?_, ?_, ?_⟩
  · unfold setTab; dsimp only; rw [R.same]; unfold strip; dsimp only; rw [strip_upd]; rfl
  · intro x t' h i hi
    dsimp only [setTab] at h ⊢
    unfold upd at h ⊢
    split at h
    · subst_vars; cases h; rw [if_pos rfl]; exact he i hi
    · rename_i hn; rw [if_neg hn]; exact R.ent x t' h i hi
  · intro x r h; dsimp only at h; unfold upd at h; split at h
    · cases h
    · exact R.root x r h
  · intro x t' h i hi k hk
    dsimp only at h
    unfold upd at h
    split at h
    · subst_vars; cases h; exact hl i hi k hk
    · exact R.link x t' h i hi k hk

/-- One new entry, not a table. -/
theorem Rel.put (R : Rel a c lp dp) {g : Nat} {t : Nat → Entry} (hg : a.mem g = .table t) (i : Nat) {e : Entry} {v : W}
    (he : Enc (lp g) (dp g) e v) (hn : ∀ k, e ≠ .table k) :
    Rel { a with mem := upd a.mem g (.table (upd t i e)) } (setTab c g (upd (c.tw g) i v)) lp dp := by
  apply R.tab
  · intro j hj
    unfold upd
    split
    · exact he
    · exact R.ent g t hg j hj
  · intro j hj k hk
    unfold upd at hk
    split at hk
    · exact absurd hk (hn k)
    · exact R.link g t hg j hj k hk

/-! ## Walks -/

/-- A table that a walk of a realm found. -/
structure Site (a : State) (c : CState) (lp : Nat → Bool) (dp : Nat → Nat) (lpa2 : Bool) (d g : Nat) : Prop where
  st : a.st g = .rtt
  mem : a.mem g = .table (tabOf a g)
  lp : lp g = lpa2
  dp : dp g = d
  tw : tabW c g = some (c.tw g)
  enc : ∀ i < 512, Enc lpa2 d (tabOf a g i) (c.tw g i)

theorem Site.of (h : InvG P a ti di rl) (R : Rel a c lp dp) {g : Nat} (hg : a.st g = .rtt) :
    Site a c lp dp (lp g) (dp g) g := by
  have hm := (h.tab g hg).mem
  refine ⟨hg, hm, rfl, rfl, ?_, R.ent g _ hm⟩
  rw [tabW_strip a R.same, Rmm.getTab_eq h hg]
  rfl

theorem walkFrom_eq (h : InvG P a ti di rl) (R : Rel a c lp dp) (lpa2 : Bool) (x tgt : Nat) : ∀ d g,
    a.st g = .rtt → lp g = lpa2 → dp g = d →
    walkFromW c lpa2 x tgt d g = Rmm.walkFrom a x tgt d g ∧
    ∀ w, Rmm.walkFrom a x tgt d g = some w → Site a c lp dp lpa2 w.d w.g ∧ w.i < 512 := by
  intro d
  induction d with
  | zero =>
    intro g hg h1 h2
    refine ⟨rfl, ?_⟩
    intro w hw
    cases hw
    have k := Site.of h R hg
    rw [h1, h2] at k
    exact ⟨k, Rmm.idx_lt _ _⟩
  | succ d ih =>
    intro g hg h1 h2
    have k := Site.of h R hg
    rw [h1, h2] at k
    unfold walkFromW Rmm.walkFrom
    by_cases h3 : d + 1 ≤ tgt
    · rw [if_pos h3, if_pos h3]
      refine ⟨rfl, ?_⟩
      intro w hw
      cases hw
      exact ⟨k, Rmm.idx_lt _ _⟩
    rw [if_neg h3, if_neg h3, k.tw, Rmm.getTab_of_mem k.mem]
    dsimp only
    have ke := k.enc (idx (d + 1) x) (Rmm.idx_lt _ _)
    rw [ke.is_table (by omega)]
    cases he : tabOf a g (idx (d + 1) x) with
    | table n =>
      rw [he] at ke
      simp only [kind, decide_true, if_true]
      rw [ke.to_phys]
      have hst : c.s.st = a.st := by rw [R.same]; rfl
      rw [hst]
      by_cases h4 : a.st n = .rtt
      · rw [if_pos h4, if_pos h4]
        have hl := R.link g _ k.mem _ (Rmm.idx_lt _ _) n he
        exact ih n h4 (by rw [hl.1, h1]) (by omega)
      · rw [if_neg h4, if_neg h4]
        exact ⟨rfl, fun w hw => by cases hw⟩
    | unassigned r =>
      have : ¬ 8 = kind (.unassigned r) := by cases r <;> decide
      simp only [this, decide_false]
      exact ⟨rfl, fun w hw => by cases hw; exact ⟨k, Rmm.idx_lt _ _⟩⟩
    | assigned r p =>
      have : ¬ 8 = kind (.assigned r p) := by cases r <;> simp [kind]
      simp only [this, decide_false]
      exact ⟨rfl, fun w hw => by cases hw; exact ⟨k, Rmm.idx_lt _ _⟩⟩
    | unassignedNs => exact ⟨rfl, fun w hw => by cases hw; exact ⟨k, Rmm.idx_lt _ _⟩⟩
    | assignedNs _ _ => exact ⟨rfl, fun w hw => by cases hw; exact ⟨k, Rmm.idx_lt _ _⟩⟩

theorem walk_eq (h : InvG P a ti di rl) (R : Rel a c lp dp) {rdA : Nat} (hrd : a.st rdA = .rd) (x tgt : Nat) :
    walkW c (rdOf a rdA) x tgt = Rmm.walk a (rdOf a rdA) x tgt ∧
    ∀ w, Rmm.walk a (rdOf a rdA) x tgt = some w → Site a c lp dp (rdOf a rdA).lpa2 w.d w.g ∧ w.i < 512 := by
  unfold walkW Rmm.walk
  have hst : c.s.st = a.st := by rw [R.same]; rfl
  rw [hst]
  by_cases h1 : tgt ≤ (rdOf a rdA).d0 ∧ x < (rdOf a rdA).ipaSize ∧ a.st (rdOf a rdA).root = .rtt ∧
      (rootFor (rdOf a rdA) x).1 < (rdOf a rdA).nroots ∧ a.st (rootFor (rdOf a rdA) x).2 = .rtt
  · rw [if_pos h1, if_pos h1]
    have hr := R.root rdA _ (h.rds rdA hrd).mem _ h1.2.2.2.1
    exact walkFrom_eq h R _ x tgt _ _ h1.2.2.2.2 hr.1 hr.2
  · rw [if_neg h1, if_neg h1]
    exact ⟨rfl, fun w hw => by cases hw⟩

end

end Verif.Desc
