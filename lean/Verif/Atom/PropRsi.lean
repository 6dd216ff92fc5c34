import Verif.Atom.RsiMain
import Verif.Atom.PropAtom
import Verif.Rmm.Life

/-!
# C73: RSI calls use memory that stays the realm's while other CPUs run commands

`RExec` runs any number of CPUs; commands of the host and the walks of RSI calls take and
release granule locks step by step, and a handler uses the physical address it found before.
`RSerial` lets everything happen at once, one event after the other: an access of an RSI call
is an access of the realm, at the address it gave.
-/

namespace Verif.Atom

open Rmm

/-- Events one after the other from the initial state; latest first. -/
inductive RSerial (P : Plat) : State → List Ev → Prop where
  | init {s} : Init P s → RSerial P s []
  | step {s s' ev l} : RSerial P s l → Does P s s' ev → RSerial P s' (ev :: l)

/-- Two records say the same (operations: `Agree`). -/
def EvAgree : Ev → Ev → Prop
  | .op o r, .op o' r' => Agree (o, r) (o', r')
  | x, y => x = y

section
variable {P : Plat} {n : Nat} {r : R}

theorem lift_ok {x : Res} {r' : R} {ev : Option Ev} (h : r.lift x = .ok r' ev) :
    ∃ m' d, x = .ok m' d ∧ r' = { r with m := m' } ∧ ev = d.map (fun y => .op y.1 y.2) := by
  cases x with
  | blocked => cases h
  | fail => cases h
  | ok m d =>
    cases d with
    | none => cases h; exact ⟨_, _, rfl, rfl, rfl⟩
    | some y => obtain ⟨o, t⟩ := y; cases h; exact ⟨_, _, rfl, rfl, rfl⟩

theorem lift_act (hP : PlatOk P) (I : RInv P n r) {i : Nat} (hi : i < n) (hc : r.call i = none) {act : Act}
    (ha : ∀ op, act = .start op → ∀ j < n, ∀ c, r.call j = some c → mover op ≠ some c.recA) {r' : R} {ev : Option Ev}
    (e : r.lift (mstep P n r.m i act) = .ok r' ev) : RInv P n r' ∧ EvOk P r.m.s r'.m.s ev := by
  obtain ⟨m', d, h1, rfl, rfl⟩ := lift_ok e
  have k := base_step hP I hi hc ha h1
  refine ⟨k.1, ?_⟩
  cases d with
  | none => exact k.2
  | some y => exact k.2

theorem free_actor (hb : ∀ x, actor op = some x → busy n r x = false) :
    ∀ j < n, ∀ c, r.call j = some c → mover op ≠ some c.recA := by
  intro j hj c hc hm
  by_cases ha : actor op = some c.recA
  · exact not_busy (hb _ ha) j hj c hc rfl
  · exact mover_actor ha hm

theorem rstep_ok (hP : PlatOk P) (I : RInv P n r) {i : Nat} (hi : i < n) {act : RAct} {r' : R} {ev : Option Ev}
    (e : rstep P n r i act = .ok r' ev) : RInv P n r' ∧ EvOk P r.m.s r'.m.s ev := by
  cases act with
  | base act =>
    simp only [rstep] at e
    split at e
    · cases e
    rename_i hc
    split at e
    · rename_i op
      split at e
      · rename_i x hx
        split at e
        · cases e
        · rename_i hb
          refine lift_act hP I hi hc (fun o ho => ?_) e
          cases ho
          exact free_actor (fun y hy => by rw [hx] at hy; cases hy; simpa using hb)
      · rename_i hx
        refine lift_act hP I hi hc (fun o ho => ?_) e
        cases ho
        exact free_actor (fun y hy => by rw [hx] at hy; cases hy)
    · exact lift_act hP I hi hc (fun o ho => by cases ho) e
  | call recA a =>
    obtain ⟨h1, rfl, h3⟩ := (call_step I hi).2 _ _ e
    exact ⟨h1, h3⟩
  | go =>
    simp only [rstep] at e
    split at e
    · cases e
    rename_i c hc
    split at e
    · cases e
    rename_i hn
    have hn : atEnd r i c = none := by
      cases h0 : atEnd r i c with
      | none => rfl
      | some y => rw [h0] at hn; exact absurd rfl hn
    obtain ⟨m', d, h1, rfl, rfl⟩ := lift_ok e
    rcases go_step hP I hi hc hn with h2 | ⟨x, d', g, h2, hpa⟩
    · rw [h2] at h1; cases h1
    · have k := go_ok hP I.minv hi
      rw [h2] at h1 k
      unfold M.to at h1
      cases h1
      have k2 := I.calls i hi c hc
      have := I.put (i := i) (p := .walking (rop c) x d' g) (co := some c) k.2
        (fun c' hc' => by
          cases hc'
          exact ⟨k2.runs, k2.al, k2.par, Or.inr ⟨x, d', g, rfl, fun pa hh => by rw [hpa] at hh; cases hh⟩⟩)
        (fun c' hc' j hj hji c2 hc2 => by cases hc'; exact I.one i hi j hj (Ne.symm hji) c c2 hc hc2)
      rw [← hc, upd_self] at this
      exact ⟨this, rfl⟩
  | look =>
    simp only [rstep] at e
    split at e
    · cases e
    rename_i c hc
    have k := I.calls i hi c hc
    split at e
    swap
    · cases e
    rename_i d g hpa he
    obtain ⟨o, x, t, hpc, ht, hend⟩ := atEnd_spec he
    obtain ⟨ti, di, rl, h, hp, hd⟩ := I.minv
    have hpi := hp i hi
    rcases k.pos with ⟨_, y, hy⟩ | ⟨y, d', g', hy, _⟩
    · rw [hpc] at hy; cases hy
    rw [hpc] at hy
    cases hy
    rw [hpc] at hpi
    have ka : At r.m.s ti c.rd c.a d g := hpi.2.1
    have htt : t = tabOf r.m.s g := (getTab_some ht).2.symm
    subst htt
    have hl := k.leaf h ka hend
    rw [ht] at e
    dsimp only at e
    split at e
    · rename_i b hb
      cases e
      refine ⟨?_, rfl, c.rd, k.runs, by rw [hl, hb]⟩
      have := I.put (i := i) (p := .walking (rop c) x d g) (co := some { c with pa := some (b + c.a % sz d) })
        (by rw [← hpc, upd_self]; exact I.minv)
        (fun c' hc' => by
          cases hc'
          exact ⟨k.runs, k.al, k.par, Or.inr ⟨x, d, g, rfl, fun pa hh => by cases hh; exact ⟨b, hb, rfl⟩⟩⟩)
        (fun c' hc' j hj hji c2 hc2 => by cases hc'; exact I.one i hi j hj (Ne.symm hji) c c2 hc hc2)
      rw [← hpc, upd_self] at this
      exact this
    · cases e
      exact ⟨I.drop hi, rfl, c.rd, k.runs, hl⟩
  | scan =>
    simp only [rstep] at e
    split at e
    · cases e
    rename_i c hc
    have k := I.calls i hi c hc
    split at e
    swap
    · cases e
    rename_i d g hpa he
    obtain ⟨o, x, t, hpc, ht, hend⟩ := atEnd_spec he
    obtain ⟨ti, di, rl, h, hp, hd⟩ := I.minv
    have hpi := hp i hi
    rcases k.pos with ⟨_, y, hy⟩ | ⟨y, d', g', hy, _⟩
    · rw [hpc] at hy; cases hy
    rw [hpc] at hy
    cases hy
    rw [hpc] at hpi
    have ka : At r.m.s ti c.rd c.a d g := hpi.2.1
    have htt : t = tabOf r.m.s g := (getTab_some ht).2.symm
    subst htt
    rw [ht] at e
    dsimp only at e
    cases e
    refine ⟨I.drop hi, rfl, c.rd, k.runs, k.leaf h ka hend, fun y hy hal hne => ?_⟩
    exact leaf_at h ⟨ka.rd, hy, ka.st, by rw [ka.ti, hal]⟩ hne
  | load =>
    simp only [rstep] at e
    split at e
    · rename_i recA rd a pa hc
      cases e
      have k := I.calls i hi _ hc
      obtain ⟨ti, di, rl, h, hp, hd⟩ := id I.minv
      exact ⟨I, rfl, rd, pa, k.runs, k.maps h (hp i hi) rfl, rfl⟩
    · cases e
  | store p =>
    simp only [rstep] at e
    split at e
    · rename_i recA rd a pa hc
      cases e
      exact store_step hP I hi hc
    · cases e
  | ret =>
    simp only [rstep] at e
    split at e
    · cases e
      exact ⟨I.drop hi, rfl⟩
    · cases e

theorem RExec.inv (hP : PlatOk P) {l : List Ev} (x : RExec P n r l) : RInv P n r := by
  induction x with
  | init hi =>
    obtain ⟨ti, di, rl, h⟩ := hi.inv
    refine ⟨⟨ti, di, rl, h, fun _ _ => trivial, fun _ _ _ _ _ x hx => by cases hx⟩, ?_, ?_⟩
    · intro _ _ c hc; cases hc
    · intro _ _ _ _ _ c _ hc; cases hc
  | step _ hi e ih => exact (rstep_ok hP ih hi e).1

/-- Whatever `n` CPUs have done: letting the events happen at once, one after the other in the
order in which they were made, gives the same memory and the same results.  What an RSI call
looked up is what the hardware would have found for the realm at that moment; what it read and
wrote, after other CPUs made any number of steps, is the realm's page at that address, and a
write is a store of the REC. -/
theorem C73_linearizable (hP : PlatOk P) {l : List Ev} (x : RExec P n r l) :
    ∃ l', RSerial P r.m.s l' ∧ List.Forall₂ EvAgree l l' := by
  induction x with
  | init h => exact ⟨[], .init h, .nil⟩
  | @step r r' l i act ev x hi e ih =>
    obtain ⟨l', h1, h2⟩ := ih
    have k := (rstep_ok hP (RExec.inv hP x) hi e).2
    cases ev with
    | none =>
      have k : r'.m.s = r.m.s := k
      rw [k]; exact ⟨l', h1, h2⟩
    | some ev =>
      have same : ∀ ev, Does P r.m.s r'.m.s ev → (∀ o t, ev ≠ .op o t) →
          ∃ l', RSerial P r'.m.s l' ∧ List.Forall₂ EvAgree ((some ev).toList ++ l) l' := by
        intro ev k hne
        refine ⟨ev :: l', .step h1 k, .cons ?_ h2⟩
        cases ev <;> first | rfl | exact absurd rfl (hne _ _)
      cases ev with
      | op op ret =>
        have k : Lin P r.m.s op r'.m.s ret := k
        rcases k with h3 | ⟨ht, hs, hr, h3⟩
        · exact ⟨.op op ret :: l', .step h1 h3, .cons ⟨rfl, Or.inl rfl⟩ h2⟩
        · refine ⟨.op op errInput :: l', ?_, .cons ⟨rfl, Or.inr ⟨?_, hr, by simp [errInput]⟩⟩ h2⟩
          · rw [hs]; exact .step h1 h3
          · cases op with
            | dataCreate rd data a src flags => exact ⟨rd, data, a, src, flags, rfl⟩
            | _ => exact ht.elim
      | look x a e d => exact same _ k (fun _ _ hh => by cases hh)
      | scan x a d t => exact same _ k (fun _ _ hh => by cases hh)
      | load x a v => exact same _ k (fun _ _ hh => by cases hh)
      | store x a p => exact same _ k (fun _ _ hh => by cases hh)

theorem Does.reach {s s' : State} {ev : Ev} (h : Reach P s) (k : Does P s s' ev) : Reach P s' := by
  cases ev with
  | op op ret => exact .step h k
  | look => rw [k.1]; exact h
  | scan => rw [k.1]; exact h
  | load => rw [k.1]; exact h
  | store x a p => obtain ⟨rd, pa, _, _, _, e⟩ := k; exact .step h e

/-- The memory is one that operations run one after the other reach: what is proved of
`Reach` holds while commands and RSI calls are under way. -/
theorem C73_reach (hP : PlatOk P) {l : List Ev} (x : RExec P n r l) : Reach P r.m.s := by
  obtain ⟨l', h, -⟩ := C73_linearizable hP x
  clear x
  generalize r.m.s = s at h
  induction h with
  | init h => exact .init h
  | step _ k ih => exact Does.reach ih k

/-- As long as a handler has not returned, the physical address it found is its realm's page:
the REC runs, the hardware walk for the address gets there, the granule is a data granule in
the Realm physical address space, and no other CPU holds the table the address came from. -/
theorem C73_maps (hP : PlatOk P) {l : List Ev} (x : RExec P n r l) {i : Nat} (hi : i < n) {c : Call} {pa : Nat}
    (hc : r.call i = some c) (hpa : c.pa = some pa) :
    Runs r.m.s c.recA c.rd ∧ Maps r.m.s c.rd c.a pa ∧
    ∃ g, g ∈ held (r.m.pc i) ∧ r.m.s.st g = .rtt ∧ ∀ j < n, j ≠ i → g ∉ held (r.m.pc j) := by
  have I := RExec.inv hP x
  have k := I.calls i hi c hc
  obtain ⟨ti, di, rl, h, hp, hd⟩ := I.minv
  refine ⟨k.runs, k.maps h (hp i hi) hpa, ?_⟩
  rcases k.pos with ⟨h1, _⟩ | ⟨y, d, g, h1, _⟩
  · rw [h1] at hpa; cases hpa
  · have hg : g ∈ held (r.m.pc i) := by rw [h1]; exact List.mem_cons_self
    have hpi := hp i hi
    rw [h1] at hpi
    exact ⟨g, hg, hpi.2.1.st, fun j hj hji => hd i hi j hj (Ne.symm hji) g hg⟩

/-- The page a handler found belongs to one realm and one address. -/
theorem maps_di {s : State} {ti : Nat → TabInfo} {di : Nat → Nat × Nat} {rl : Nat → List Nat}
    (h : InvG P s ti di rl) {rd a pa : Nat} (hrd : s.st rd = .rd) (k : Maps s rd a pa) :
    di pa = (rd, a / 4096 * 4096) := by
  have hx : pa / 4096 * 4096 = pa := Nat.div_mul_cancel (Nat.dvd_of_mod_eq_zero k.al)
  rcases (translate_spec h hrd k.hw).2 with ⟨_, _, _, h4, _⟩ | ⟨h3, _⟩
  · rw [hx] at h4; exact h4
  · cases h3

theorem store_act {j : Nat} {act : RAct} {r' : R} {y a p : Nat}
    (e : rstep P n r j act = .ok r' (some (.store y a p))) : ∃ rd pa, r.call j = some ⟨y, rd, a, some pa⟩ := by
  have nolift : ∀ z, r.lift z ≠ .ok r' (some (.store y a p)) := by
    intro z hz
    obtain ⟨m', d, _, _, hev⟩ := lift_ok hz
    cases d <;> cases hev
  cases act with
  | store p' =>
    simp only [rstep] at e
    split at e
    · rename_i recA rd a pa hcj
      cases e
      exact ⟨rd, pa, hcj⟩
    · cases e
  | call recA b =>
    simp only [rstep, rcall] at e
    repeat' split at e
    all_goals cases e
  | base act =>
    simp only [rstep] at e
    repeat' split at e
    all_goals first
      | exact absurd e (nolift _)
      | cases e
  | go =>
    simp only [rstep] at e
    repeat' split at e
    all_goals first
      | exact absurd e (nolift _)
      | cases e
  | _ =>
    simp only [rstep] at e
    repeat' split at e
    all_goals cases e

/-- What another CPU does to the page meanwhile: nothing, unless it runs another REC of the
same realm that stores to it, itself or through an RSI call.  The host, other realms and
commands cannot change it. -/
theorem C73_contents (hP : PlatOk P) {l : List Ev} (x : RExec P n r l) {i j : Nat} (hi : i < n) (hj : j < n)
    (hne : j ≠ i) {c : Call} {pa : Nat} (hc : r.call i = some c) (hpa : c.pa = some pa) {act : RAct} {r' : R}
    {ev : Option Ev} (e : rstep P n r j act = .ok r' ev) :
    r'.call i = some c ∧ (r'.m.s.mem pa = r.m.s.mem pa ∨
      ∃ y a p, y ≠ c.recA ∧ Runs r.m.s y c.rd ∧ r'.m.s.mem pa = .page p ∧
        (ev = some (.store y a p) ∨ ∃ ret, ev = some (.op (.realmWrite y a p) ret))) := by
  have I := RExec.inv hP x
  obtain ⟨hr, hm, -⟩ := C73_maps hP x hi hc hpa
  have hcall : r'.call i = some c ∧ ∀ y op ret, ev = some (.op op ret) → actor op = some y → y ≠ c.recA := by
    have up : ∀ co, upd r.call j co i = some c := fun co => by rw [upd_ne _ _ _ (Ne.symm hne)]; exact hc
    cases act with
    | base act =>
      simp only [rstep] at e
      split at e
      · cases e
      split at e
      · rename_i op
        have key : (∀ y, actor op = some y → y ≠ c.recA) → r.lift (mstep P n r.m j (.start op)) = .ok r' ev →
            r'.call i = some c ∧ ∀ y op ret, ev = some (.op op ret) → actor op = some y → y ≠ c.recA := by
          intro ha e
          obtain ⟨m', d, h1, rfl, rfl⟩ := lift_ok e
          refine ⟨hc, fun y o ret hev hy => ?_⟩
          cases d with
          | none => cases hev
          | some z =>
            obtain ⟨o', ret'⟩ := z
            cases hev
            rcases (mstep_keeps hP I.minv hj h1).1 with h2 | h2
            · cases h2; exact ha y hy
            · cases o' <;> first | cases h2; done | cases hy
        split at e
        · rename_i y hy
          split at e
          · cases e
          · rename_i hb
            refine key (fun z hz => ?_) e
            rw [hy] at hz; cases hz
            exact (not_busy (by simpa using hb) i hi c hc).symm
        · rename_i hy
          exact key (fun z hz => by rw [hy] at hz; cases hz) e
      · obtain ⟨m', d, h1, rfl, rfl⟩ := lift_ok e
        refine ⟨hc, fun y o ret hev hy => ?_⟩
        cases d with
        | none => cases hev
        | some z =>
          obtain ⟨o', ret'⟩ := z
          cases hev
          rcases (mstep_keeps hP I.minv hj h1).1 with h2 | h2
          · cases h2
          · cases o' <;> first | cases h2; done | cases hy
    | call recA a =>
      obtain ⟨_, rfl, _⟩ := (call_step I hj).2 _ _ e
      refine ⟨?_, fun y o ret hev => by cases hev⟩
      simp only [rstep, rcall] at e
      repeat' split at e
      all_goals first
        | (cases e; first | exact hc | exact up _)
        | cases e
    | go =>
      simp only [rstep] at e
      split at e
      · cases e
      rename_i c' hc'
      split at e
      · cases e
      obtain ⟨m', d, h1, rfl, rfl⟩ := lift_ok e
      refine ⟨hc, fun y o ret hev hy => ?_⟩
      cases d with
      | none => cases hev
      | some z =>
        obtain ⟨o', ret'⟩ := z
        cases hev
        rcases (mstep_keeps hP I.minv hj (act := .go) h1).1 with h2 | h2
        · cases h2
        · cases o' <;> first | cases h2; done | cases hy
    | _ =>
      simp only [rstep] at e
      repeat' split at e
      all_goals first
        | (cases e; exact ⟨by first | exact hc | exact up _, fun y o ret hev => by cases hev⟩)
        | cases e
  refine ⟨hcall.1, ?_⟩
  have I' := (rstep_ok hP I hj e).1
  have hm' := (I'.calls i hi c hcall.1)
  obtain ⟨ti, di, rl, h, hp, hd⟩ := I.minv
  have hst' : r'.m.s.st pa = .data := by
    obtain ⟨ti', di', rl', h', hp', hd'⟩ := I'.minv
    exact (hm'.maps h' (hp' i hi) hpa).st
  have hrd : r.m.s.st c.rd = .rd := by
    have := (h.recs _ hr.st).rd
    rwa [hr.rd] at this
  have hdi := maps_di h hrd hm
  have k := (rstep_ok hP I hj e).2
  cases ev with
  | none =>
    have k : r'.m.s = r.m.s := k
    left; rw [k]
  | some ev =>
    cases ev with
    | op op ret =>
      have k : Lin P r.m.s op r'.m.s ret := k
      rcases k with h3 | ⟨_, hs, _⟩
      · rcases step_eff hP h h3 with ⟨hs, _⟩ | f
        · left; rw [hs]
        · rcases Rmm.Eff.data_mem h f hm.st hst' with h4 | ⟨y, a, p, rfl, h5, h6, h7, _, h9⟩
          · exact Or.inl h4
          · rw [hdi] at h7
            exact Or.inr ⟨y, a, p, hcall.2 y _ ret rfl rfl, ⟨h5, h6, h7⟩, h9, Or.inr ⟨ret, rfl⟩⟩
      · left; rw [hs]
    | look => left; rw [k.1]
    | scan => left; rw [k.1]
    | load => left; rw [k.1]
    | store y a p =>
      obtain ⟨rd', pa', h1, h2, h3, h4⟩ := k
      by_cases hpp : pa' = pa
      · subst hpp
        have hrd' : r.m.s.st rd' = .rd := by
          have := (h.recs _ h1.st).rd
          rwa [h1.rd] at this
        have := maps_di h hrd' h2
        rw [hdi] at this
        have hrr : c.rd = rd' := (Prod.mk.inj this).1
        subst hrr
        obtain ⟨rd2, pa2, hcj⟩ := store_act e
        exact Or.inr ⟨y, a, p, I.one j hj i hi hne _ _ hcj hc, h1, by rw [h3]; exact upd_same _ _ _, Or.inl rfl⟩
      · left
        rw [h3]; exact upd_ne _ _ _ (Ne.symm hpp)

/-- No assertion fails in an RSI call: the root table, the tables walked and the entry are what
the code takes them for. -/
theorem C73_no_fail (hP : PlatOk P) {l : List Ev} (x : RExec P n r l) {i : Nat} (hi : i < n) {act : RAct}
    (ha : ∀ b, act ≠ .base b) : rstep P n r i act ≠ .fail := by
  have I := RExec.inv hP x
  cases act with
  | base b => exact absurd rfl (ha b)
  | call recA a => exact (call_step I hi).1
  | go =>
    simp only [rstep]
    split
    · simp
    rename_i c hc
    split
    · simp
    rename_i hn
    have hn : atEnd r i c = none := by
      cases h0 : atEnd r i c with
      | none => rfl
      | some y => rw [h0] at hn; exact absurd rfl hn
    rcases go_step hP I hi hc hn with h2 | ⟨x, d', g, h2, hpa⟩
    · rw [h2]; simp [R.lift]
    · rw [h2]; simp [M.to, R.lift]
  | look =>
    simp only [rstep]
    split
    · simp
    split
    · rename_i he
      obtain ⟨o, x, t, hpc, ht, hend⟩ := atEnd_spec he
      rw [ht]
      dsimp only
      split <;> simp
    · simp
  | scan =>
    simp only [rstep]
    split
    · simp
    split
    · rename_i he
      obtain ⟨o, x, t, hpc, ht, hend⟩ := atEnd_spec he
      rw [ht]
      simp
    · simp
  | load => simp only [rstep]; split <;> simp
  | store p => simp only [rstep]; split <;> simp
  | ret => simp only [rstep]; split <;> simp

/-- There is no deadlock: while some CPU is inside a command or an RSI call, some CPU inside
one has a step to make. -/
theorem C73_no_deadlock (hP : PlatOk P) {l : List Ev} (x : RExec P n r l) {i : Nat} (hi : i < n)
    (hne : r.m.pc i ≠ .idle) :
    ∃ j < n, r.m.pc j ≠ .idle ∧ ∃ act, (act = .base .go ∨ act = .go ∨ act = .look ∨ act = .ret) ∧
      rstep P n r j act ≠ .blocked := by
  have I := RExec.inv hP x
  obtain ⟨j, hj, h1, h2⟩ := progress I.minv hi hne
  refine ⟨j, hj, h1, ?_⟩
  have hl : r.lift (go P n r.m j) ≠ .blocked := by
    intro hh
    apply h2
    cases hg : go P n r.m j with
    | blocked => rfl
    | fail => rw [hg] at hh; cases hh
    | ok m d =>
      rw [hg] at hh
      cases d with
      | none => cases hh
      | some y => cases hh
  cases hc : r.call j with
  | none =>
    refine ⟨.base .go, Or.inl rfl, ?_⟩
    simp only [rstep, hc]
    exact hl
  | some c =>
    cases he : atEnd r j c with
    | none =>
      refine ⟨.go, Or.inr (Or.inl rfl), ?_⟩
      simp only [rstep, hc, he]
      exact hl
    | some y =>
      obtain ⟨d, g⟩ := y
      obtain ⟨recA, rd, a, pa⟩ := c
      cases pa with
      | none =>
        refine ⟨.look, Or.inr (Or.inr (Or.inl rfl)), ?_⟩
        simp only [rstep, hc, he]
        split
        · simp
        · split <;> simp
      | some pa =>
        refine ⟨.ret, Or.inr (Or.inr (Or.inr rfl)), ?_⟩
        simp only [rstep, hc]
        simp

end

/-! ## Two CPUs -/

/-- Runs a schedule (a `.base .go` of an idle CPU does nothing). -/
def rsched (P : Plat) (n : Nat) : List (Nat × RAct) → R → List Ev → Option (R × List Ev)
  | [], r, l => some (r, l)
  | (i, a) :: todo, r, l =>
    match decide (i < n), a, r.m.pc i with
    | false, _, _ => none
    | true, .base .go, .idle => rsched P n todo r l
    | true, a, _ =>
      match rstep P n r i a with
      | .ok r' ev => rsched P n todo r' (ev.toList ++ l)
      | _ => none

theorem rsched_exec {P : Plat} {n : Nat} : ∀ (c : List (Nat × RAct)) {r r' : R} {l l' : List Ev},
    RExec P n r l → rsched P n c r l = some (r', l') → RExec P n r' l' := by
  intro c
  induction c with
  | nil => intro r r' l l' x e; unfold rsched at e; cases e; exact x
  | cons a c ih =>
    obtain ⟨i, a⟩ := a
    intro r r' l l' x e
    unfold rsched at e
    split at e
    · cases e
    · exact ih x e
    · have hi : i < n := of_decide_eq_true (by assumption)
      split at e
      · rename_i hs; exact ih (.step x hi hs) e
      · cases e

namespace Ex

open Rmm.Demo

def rwhole (i : Nat) (op : Op) : List (Nat × RAct) :=
  (i, .base (.start op)) :: List.replicate 12 (i, .base .go)

/-- A realm with two pages and two RECs, both running. -/
def rsetup : List (Nat × RAct) :=
  (mkRealm ++ mkData ++ mkRecs ++ [Op.realmActivate (G 16), Op.recEnter (G 32) (G 1) true false,
    Op.recEnter (G 64) (G 2) true false]).flatMap (rwhole 0)

/-- CPU 1 makes an RSI call for 4096 and finds the page. -/
def found : List (Nat × RAct) := rsetup ++ [(1, .call (G 32) 4096), (1, .go), (1, .go), (1, .go), (1, .look)]

/-- CPU 0 has begun to destroy that page, and stands at the table above. -/
def chased : List (Nat × RAct) :=
  found ++ [(0, .base (.start (.dataDestroy (G 16) 4096))), (0, .base .go), (0, .base .go), (0, .base .go),
    (0, .base .go), (0, .base .go)]

/-- The other REC stores to the page, the call reads it, writes it, and returns; then it is
destroyed. -/
def over : List (Nat × RAct) :=
  found ++ rwhole 0 (.realmWrite (G 64) 4096 77) ++ [(1, .load), (1, .store 99), (1, .load), (1, .ret)] ++
  rwhole 0 (.dataDestroy (G 16) 4096)

theorem rexec {c : List (Nat × RAct)} {p : R × List Ev → Bool}
    (h : (rsched plat 2 c ⟨⟨boot, fun _ => .idle⟩, fun _ => none⟩ []).any p = true) :
    ∃ r l, RExec plat 2 r l ∧ p (r, l) = true := by
  cases hs : rsched plat 2 c ⟨⟨boot, fun _ => .idle⟩, fun _ => none⟩ [] with
  | none => rw [hs] at h; cases h
  | some x =>
    obtain ⟨r, l⟩ := x
    rw [hs] at h
    exact ⟨r, l, rsched_exec c (.init boot_init) hs, h⟩

def rBlocked : RRes → Bool
  | .blocked => true
  | _ => false

/-- The call found granule 23; the command that would destroy it waits. -/
example : ∃ r l c, RExec plat 2 r l ∧ r.call 1 = some c ∧ c.pa = some (G 23) ∧ r.m.pc 0 ≠ .idle ∧
    rBlocked (rstep plat 2 r 0 (.base .go)) = true := by
  obtain ⟨r, l, h1, h2⟩ := rexec (c := chased)
    (p := fun x => (x.1.call 1).any (fun c : Call => decide (c.pa = some (G 23))) && !isIdle (x.1.m.pc 0) &&
      rBlocked (rstep plat 2 x.1 0 (.base .go))) (by decide +kernel)
  simp only [Bool.and_eq_true] at h2
  cases hc : r.call 1 with
  | none => simp [hc] at h2
  | some c =>
    refine ⟨r, l, c, h1, hc, ?_, fun hh => ?_, h2.2⟩
    · simpa [hc] using h2.1.1
    · simp [hh, isIdle] at h2

def loads : List Ev → List (Nat × Nat)
  | [] => []
  | .load _ a (.page p) :: l => (a, p) :: loads l
  | _ :: l => loads l

/-- It read what the other REC had stored, then what it had written itself; once it returned the
page could be destroyed. -/
example : ∃ r l, RExec plat 2 r l ∧ loads l = [(4096, 99), (4096, 77)] ∧ r.m.s.st (G 23) = .delegated := by
  obtain ⟨r, l, h1, h2⟩ := rexec (c := over)
    (p := fun x => decide (loads x.2 = [(4096, 99), (4096, 77)] ∧ x.1.m.s.st (G 23) = .delegated)) (by decide +kernel)
  exact ⟨r, l, h1, of_decide_eq_true h2⟩

end Ex

end Verif.Atom
