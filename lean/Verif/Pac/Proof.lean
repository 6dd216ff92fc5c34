import Verif.Pac.Model

/-! Proofs about pointer authentication: a type system for `Code` that tracks what is known about the registers. -/

namespace Verif.Pac

/-- Code in part `w` that leaves keys and SCTLR_EL2 alone. -/
def Plain (w : Where) : Code → Prop
  | .other v => v = w
  | .seq a b => Plain w a ∧ Plain w b
  | .alt a b => Plain w a ∧ Plain w b
  | .loop a => Plain w a
  | .fn _ a => Plain w a
  | _ => False

/-- The parts of `P` are plain. -/
structure PlainProg (P : Prog) : Prop where
  setup : ∀ c, Plain .boot (P.setup c)
  main : ∀ c, Plain .rmm (P.main c)
  handlers : Plain .rmm P.handlers
  before : Plain .rmm P.before
  after : Plain .rmm P.after
  enter : Plain .rmm P.enter
  pre : Plain .rmm P.pre
  post : Plain .rmm P.post
  leave : Plain .rmm P.leave

/-- What is known: EnIA as written and whether it is in effect; whether the halves of the key register are RMM's and
in effect; whether the key was drawn. -/
structure Abs where
  en : Bool
  enSync : Bool
  lo : Bool
  hi : Bool
  keySync : Bool
  drawn : Bool
  deriving DecidableEq

def Abs.safe (A : Abs) : Bool := A.en && A.enSync && A.lo && A.hi && A.keySync && A.drawn
def Abs.off (A : Abs) : Bool := !A.en && A.enSync

/-- Effect of code on what is known; `s`: inside a function that signed its return address. `none`: not allowed. -/
def eff (s : Bool) (A : Abs) : Code → Option Abs
  | .other .rmm => if A.safe then some A else none
  | .other _ => some A
  | .seq a b => (eff s A a).bind (eff s · b)
  | .alt a b => if eff s A a = eff s A b then eff s A a else none
  | .loop a => if eff s A a = some A then some A else none
  | .fn false a => eff s A a
  | .fn true a =>
    if A.safe then (if eff true A a = some A then some A else none)
    else if A.off then (if eff s A a = some A then some A else none)
    else none
  | .isb => some { A with enSync := true, keySync := true }
  | .setEn b => some { A with en := b, enSync := false }
  | .draw => if A.off && !s then some { A with lo := false, hi := false, drawn := true } else none
  | .keyLo .rmm => some { A with lo := true, keySync := false }
  | .keyLo .realm => some { A with lo := false, keySync := false }
  | .keyHi .rmm => some { A with hi := true, keySync := false }
  | .keyHi .realm => some { A with hi := false, keySync := false }
  | .realm => some { A with lo := false, hi := false, keySync := false }

theorem eff_plain_rmm {A : Abs} (hA : A.safe = true) : ∀ c s, Plain .rmm c → eff s A c = some A
  | .other v, s, h => by simp only [Plain] at h; subst h; simp [eff, hA]
  | .seq a b, s, h => by simp only [Plain] at h; simp [eff, eff_plain_rmm hA a s h.1, eff_plain_rmm hA b s h.2]
  | .alt a b, s, h => by simp only [Plain] at h; simp [eff, eff_plain_rmm hA a s h.1, eff_plain_rmm hA b s h.2]
  | .loop a, s, h => by simp only [Plain] at h; simp [eff, eff_plain_rmm hA a s h]
  | .fn false a, s, h => by simp only [Plain] at h; simp [eff, eff_plain_rmm hA a s h]
  | .fn true a, s, h => by simp only [Plain] at h; simp [eff, hA, eff_plain_rmm hA a true h]
  | .isb, _, h | .setEn _, _, h | .draw, _, h | .keyLo _, _, h | .keyHi _, _, h | .realm, _, h => by
    simp [Plain] at h

theorem off_not_safe {A : Abs} (h : A.off = true) : A.safe = false := by
  simp only [Abs.off, Bool.and_eq_true, Bool.not_eq_true'] at h
  simp [Abs.safe, h.1]

theorem eff_plain_boot {A : Abs} (hA : A.off = true) : ∀ c s, Plain .boot c → eff s A c = some A
  | .other v, s, h => by simp only [Plain] at h; subst h; simp [eff]
  | .seq a b, s, h => by simp only [Plain] at h; simp [eff, eff_plain_boot hA a s h.1, eff_plain_boot hA b s h.2]
  | .alt a b, s, h => by simp only [Plain] at h; simp [eff, eff_plain_boot hA a s h.1, eff_plain_boot hA b s h.2]
  | .loop a, s, h => by simp only [Plain] at h; simp [eff, eff_plain_boot hA a s h]
  | .fn false a, s, h => by simp only [Plain] at h; simp [eff, eff_plain_boot hA a s h]
  | .fn true a, s, h => by
    simp only [Plain] at h; simp [eff, hA, off_not_safe hA, eff_plain_boot hA a s h]
  | .isb, _, h | .setEn _, _, h | .draw, _, h | .keyLo _, _, h | .keyHi _, _, h | .realm, _, h => by
    simp [Plain] at h

/-- What is known once RMM is up. -/
def up : Abs := ⟨true, true, true, true, true, true⟩

theorem eff_round {P : Prog} (h : PlainProg P) (s : Bool) : eff s up (round P) = some up := by
  have e1 := eff_plain_rmm (A := up) rfl P.pre s h.pre
  have e2 := eff_plain_rmm (A := up) rfl P.post s h.post
  simp only [round, eff, e1, Option.bind_some, restoreRealm, runRealm, saveRealm, restoreRmm]
  exact e2

theorem eff_loop {P : Prog} (h : PlainProg P) (s : Bool) : eff s up (recRunLoop P) = some up := by
  have e1 := eff_plain_rmm (A := up) rfl P.pre s h.pre
  have e2 := eff_plain_rmm (A := up) rfl P.enter s h.enter
  have e3 := eff_plain_rmm (A := up) rfl P.leave s h.leave
  have e4 : up.safe = true := rfl
  simp only [recRunLoop, eff, e1, e2, e3, e4, eff_round h s, Option.bind_some, if_true]

theorem eff_smc {P : Prog} (h : PlainProg P) (s : Bool) : eff s up (handleNsSmc P) = some up := by
  have e1 := eff_plain_rmm (A := up) rfl P.handlers s h.handlers
  have e2 := eff_plain_rmm (A := up) rfl P.before s h.before
  have e3 := eff_plain_rmm (A := up) rfl P.after s h.after
  have e4 : up.safe = true := rfl
  simp only [handleNsSmc, eff, e1, e2, e3, e4, eff_loop h true, Option.bind_some, if_true]

theorem eff_handler {P : Prog} (h : PlainProg P) (s : Bool) : eff s up (rmmHandler P) = some up := by
  have e4 : up.safe = true := rfl
  simp only [rmmHandler, eff, e4, eff_smc h true, Option.bind_some, if_true]

theorem eff_entry {P : Prog} (h : PlainProg P) (A : Abs) (c : Bool) : eff false A (entry P c) = some up := by
  have hoff : (⟨false, true, A.lo, A.hi, true, A.drawn⟩ : Abs).off = true := rfl
  have e1 := eff_plain_boot hoff (P.setup c) false (h.setup c)
  have e2 := eff_plain_rmm (A := up) rfl (P.main c) true (h.main c)
  have e4 : up.safe = true := rfl
  have e5 : eff false ⟨false, true, A.lo, A.hi, true, A.drawn⟩ pauthInit = some up := by
    simp [pauthInit, restoreRmm, eff, Abs.off, up]
  simp only [entry, eff, Option.bind_some, e1, e5, e2, e4, eff_handler h false, if_true]

/-- What is known is true of a CPU whose key is `key`. -/
structure Sat (key : Key) (A : Abs) (c : Cpu) : Prop where
  en : c.en = A.en
  enSync : A.enSync = true → c.een = c.en
  lo : A.lo = true → c.lo = loOf key
  hi : A.hi = true → c.hi = hiOf key
  keySync : A.keySync = true → c.elo = c.lo ∧ c.ehi = c.hi
  drawn : A.drawn = true → c.drawn = true

/-- What is left to do is allowed, and the return addresses on the stack carry the right code. -/
inductive Wf (pac : PacFn) (key : Key) : Bool → Abs → List Item → Prop
  | nil (s : Bool) (A : Abs) : Wf pac key s A []
  | code {s A A' c k} : eff s A c = some A' → Wf pac key s A' k → Wf pac key s A (.code c :: k)
  | signed {s A f k} : A.safe = true → f.field = pac key f.lr f.sp → Wf pac key s A k → Wf pac key true A (.ret f :: k)
  | unsigned {s A f k} : A.off = true → f.field = 0 → Wf pac key s A k → Wf pac key s A (.ret f :: k)

theorem Wf.rekey {pac : PacFn} {key key' : Key} {s : Bool} {A : Abs} {k : List Item} (h : Wf pac key s A k)
    (hs : s = false) : Wf pac key' s A k := by
  induction h with
  | nil s A => exact .nil s A
  | code he _ ih => exact .code he (ih hs)
  | signed => cases hs
  | unsigned ha hf _ ih => exact .unsigned ha hf (ih hs)

def Good (pac : PacFn) (key : Key) (c : Cpu) : Prop := ∃ s A, Sat key A c ∧ Wf pac key s A c.k

theorem join_halves (k : Key) : join (hiOf k) (loOf k) = k := by
  unfold join hiOf loOf
  apply BitVec.eq_of_getLsbD_eq
  intro i hi
  simp only [BitVec.getLsbD_or, BitVec.getLsbD_shiftLeft, BitVec.getLsbD_setWidth, BitVec.getLsbD_ushiftRight]
  by_cases h : i < 64
  · simp [h, hi]
  · have e : 64 + (i - 64) = i := by omega
    simp [h, hi, e, show i - 64 < 64 by omega, show i - 64 < 128 by omega]

theorem Sat.eff_key {key : Key} {A : Abs} {c : Cpu} (h : Sat key A c) (hs : A.safe = true) :
    c.een = true ∧ join c.ehi c.elo = key := by
  simp only [Abs.safe, Bool.and_eq_true] at hs
  obtain ⟨⟨⟨⟨⟨h1, h2⟩, h3⟩, h4⟩, h5⟩, _⟩ := hs
  refine ⟨by rw [h.enSync h2, h.en, h1], ?_⟩
  rw [(h.keySync h5).1, (h.keySync h5).2, h.lo h3, h.hi h4, join_halves]

theorem Sat.off {key : Key} {A : Abs} {c : Cpu} (h : Sat key A c) (hs : A.off = true) : c.een = false := by
  simp only [Abs.off, Bool.and_eq_true, Bool.not_eq_true'] at hs
  rw [h.enSync hs.2, h.en, hs.1]

theorem Sat.withK {key : Key} {A : Abs} {c : Cpu} (h : Sat key A c) (k : List Item) : Sat key A { c with k := k } :=
  ⟨h.en, h.enSync, h.lo, h.hi, h.keySync, h.drawn⟩

@[simp] theorem upd_same {α : Type} (f : Nat → α) (i : Nat) (v : α) : upd f i v i = v := by simp [upd]
theorem upd_ne {α : Type} (f : Nat → α) {i j : Nat} (v : α) (h : j ≠ i) : upd f i v j = f j := by simp [upd, h]

/-- The invariant. -/
def Inv (pac : PacFn) (m : M) : Prop := ∀ i, Good pac (m.apia i) (m.cpu i)

theorem inv_set {pac : PacFn} {m : M} (h : Inv pac m) {i : Nat} {c : Cpu} (hc : Good pac (m.apia i) c) :
    Inv pac { m with cpu := upd m.cpu i c } := by
  intro j
  by_cases hj : j = i
  · subst hj; simpa using hc
  · simpa [upd_ne _ _ hj] using h j

theorem inv_set2 {pac : PacFn} {m : M} (h : Inv pac m) {i : Nat} {c : Cpu} {s : Bool} {A : Abs}
    (hw : Wf pac (m.apia i) s A c.k) (hs : Sat (m.apia i) A c) : Inv pac { m with cpu := upd m.cpu i c } :=
  inv_set h ⟨s, A, hs, hw⟩

theorem next_inv {pac : PacFn} {m : M} (h : Inv pac m) (i : Nat) (o : Choice) :
    ∃ m', next pac m i o = some m' ∧ Inv pac m' := by
  obtain ⟨s, A, hs, hw⟩ := h i
  unfold next
  generalize hk : (m.cpu i).k = k at hw ⊢
  cases hw with
  | nil => exact ⟨m, rfl, h⟩
  | signed ha hf hr =>
    have e := hs.eff_key ha
    rename_i s' f k
    have : authOk pac (m.cpu i) f = true := by simp [authOk, e.1, e.2, hf]
    simp only [exec, this, if_true]
    exact ⟨_, rfl, inv_set h ⟨_, A, hs.withK _, hr⟩⟩
  | unsigned ha hf hr =>
    have e := hs.off ha
    rename_i f k
    have : authOk pac (m.cpu i) f = true := by simp [authOk, e, hf]
    simp only [exec, this, if_true]
    exact ⟨_, rfl, inv_set h ⟨_, A, hs.withK _, hr⟩⟩
  | code he hr =>
    rename_i A' c k
    cases c with
    | other w =>
      have hA : A' = A := by
        cases w <;> simp only [eff] at he
        · exact (Option.some.inj he).symm
        · split at he
          · exact (Option.some.inj he).symm
          · cases he
        · exact (Option.some.inj he).symm
      subst hA
      exact ⟨_, rfl, inv_set h ⟨s, _, hs.withK _, hr⟩⟩
    | seq a b =>
      simp only [eff] at he
      cases hb : eff s A a with
      | none => rw [hb] at he; cases he
      | some B =>
        rw [hb] at he
        exact ⟨_, rfl, inv_set h ⟨s, A, hs.withK _, .code hb (.code he hr)⟩⟩
    | alt a b =>
      simp only [eff] at he
      by_cases hab : eff s A a = eff s A b
      · rw [if_pos hab] at he
        refine ⟨_, rfl, inv_set h ⟨s, A, hs.withK _, .code ?_ hr⟩⟩
        cases o.b
        · exact hab ▸ he
        · exact he
      · rw [if_neg hab] at he; cases he
    | loop a =>
      simp only [eff] at he
      by_cases ha : eff s A a = some A
      · rw [if_pos ha] at he
        obtain rfl := Option.some.inj he
        refine ⟨_, rfl, inv_set h ⟨s, A, hs.withK _, ?_⟩⟩
        cases o.b
        · exact hr
        · exact .code ha (.code (by simp [eff, ha]) hr)
      · rw [if_neg ha] at he; cases he
    | fn p a =>
      cases p
      · exact ⟨_, rfl, inv_set h ⟨s, A, hs.withK _, .code he hr⟩⟩
      · simp only [eff] at he
        by_cases h1 : A.safe = true
        · rw [if_pos h1] at he
          by_cases h2 : eff true A a = some A
          · rw [if_pos h2] at he
            obtain rfl := Option.some.inj he
            have e := hs.eff_key h1
            exact ⟨_, rfl, inv_set h ⟨true, A, hs.withK _, .code h2 (.signed h1 (by simp [sign, e.1, e.2]) hr)⟩⟩
          · rw [if_neg h2] at he; cases he
        · rw [if_neg h1] at he
          by_cases h2 : A.off = true
          · rw [if_pos h2] at he
            by_cases h3 : eff s A a = some A
            · rw [if_pos h3] at he
              obtain rfl := Option.some.inj he
              exact ⟨_, rfl, inv_set h ⟨s, A, hs.withK _, .code h3 (.unsigned h2 (by simp [sign, hs.off h2]) hr)⟩⟩
            · rw [if_neg h3] at he; cases he
          · rw [if_neg h2] at he; cases he
    | isb =>
      obtain rfl := Option.some.inj he
      refine ⟨_, rfl, inv_set2 h hr ?_⟩
      exact ⟨hs.en, fun _ => rfl, hs.lo, hs.hi, fun _ => ⟨rfl, rfl⟩, hs.drawn⟩
    | setEn b =>
      obtain rfl := Option.some.inj he
      refine ⟨_, rfl, inv_set2 h hr ?_⟩
      exact ⟨rfl, fun e => (by cases e), hs.lo, hs.hi, hs.keySync, hs.drawn⟩
    | draw =>
      simp only [eff] at he
      by_cases hd : (A.off && !s) = true
      · rw [if_pos hd] at he
        obtain rfl := Option.some.inj he
        simp only [Bool.and_eq_true, Bool.not_eq_true'] at hd
        refine ⟨_, rfl, fun j => ?_⟩
        by_cases hj : j = i
        · subst hj
          simp only [upd_same]
          refine ⟨s, _, ?_, hr.rekey hd.2⟩
          exact ⟨hs.en, hs.enSync, fun e => (by cases e), fun e => (by cases e), hs.keySync, fun _ => rfl⟩
        · simpa [upd_ne _ _ hj] using h j
      · rw [if_neg hd] at he; cases he
    | keyLo x =>
      cases x
      · obtain rfl := Option.some.inj he
        refine ⟨_, rfl, inv_set2 h hr ?_⟩
        exact ⟨hs.en, hs.enSync, fun _ => rfl, hs.hi, fun e => (by cases e), hs.drawn⟩
      · obtain rfl := Option.some.inj he
        refine ⟨_, rfl, inv_set2 h hr ?_⟩
        exact ⟨hs.en, hs.enSync, fun e => (by cases e), hs.hi, fun e => (by cases e), hs.drawn⟩
    | keyHi x =>
      cases x
      · obtain rfl := Option.some.inj he
        refine ⟨_, rfl, inv_set2 h hr ?_⟩
        exact ⟨hs.en, hs.enSync, hs.lo, fun _ => rfl, fun e => (by cases e), hs.drawn⟩
      · obtain rfl := Option.some.inj he
        refine ⟨_, rfl, inv_set2 h hr ?_⟩
        exact ⟨hs.en, hs.enSync, hs.lo, fun e => (by cases e), fun e => (by cases e), hs.drawn⟩
    | realm =>
      obtain rfl := Option.some.inj he
      refine ⟨_, rfl, inv_set2 h hr ?_⟩
      exact ⟨hs.en, hs.enSync, fun e => (by cases e), fun e => (by cases e), fun e => (by cases e), hs.drawn⟩

theorem step_inv {pac : PacFn} {P : Prog} (hP : PlainProg P) {m : M} (h : Inv pac m) (i : Nat) (a : Act) :
    ∃ m', step pac P m i a = some m' ∧ Inv pac m' := by
  cases a with
  | go o => exact next_inv h i o
  | settle l t e =>
    obtain ⟨s, A, hs, hw⟩ := h i
    refine ⟨_, rfl, inv_set h ⟨s, A, ⟨hs.en, fun x => ?_, hs.lo, hs.hi, fun x => ?_, hs.drawn⟩, hw⟩⟩
    · have := hs.enSync x
      cases e <;> simp [this]
    · have := hs.keySync x
      cases l <;> cases t <;> simp [this.1, this.2]
  | start cold lo hi elo ehi en een =>
    refine ⟨_, rfl, inv_set h ⟨false, ⟨en, false, false, false, false, false⟩, ?_, .code (eff_entry hP _ cold) (.nil _ _)⟩⟩
    exact ⟨rfl, fun e => (by cases e), fun e => (by cases e), fun e => (by cases e), fun e => (by cases e), fun e => (by cases e)⟩

theorem init_inv (pac : PacFn) : Inv pac init := fun _ =>
  ⟨false, ⟨false, false, false, false, false, false⟩,
    ⟨rfl, fun e => (by cases e), fun e => (by cases e), fun e => (by cases e), fun e => (by cases e), fun e => (by cases e)⟩,
    .nil _ _⟩

theorem runs_inv {pac : PacFn} {P : Prog} (hP : PlainProg P) : ∀ (as : List (Nat × Act)) (m : M), Inv pac m →
    ∃ m', runs pac P m as = some m' ∧ Inv pac m'
  | [], m, h => ⟨m, rfl, h⟩
  | (i, a) :: as, m, h => by
    obtain ⟨m1, e1, h1⟩ := step_inv hP h i a
    obtain ⟨m2, e2, h2⟩ := runs_inv hP as m1 h1
    exact ⟨m2, by simp [runs, e1, e2], h2⟩

end Verif.Pac
