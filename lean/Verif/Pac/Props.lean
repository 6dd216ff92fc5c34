import Verif.Pac.Proof

/-!
# Properties of pointer authentication in RMM (C79)
-/

namespace Verif.Pac

/-- No return address of RMM ever fails to authenticate: whatever the CPUs do, in whatever order, however often they
are started, whatever the realms write to their keys and whenever register writes take effect. -/
theorem C79_never_fails {P : Prog} (hP : PlainProg P) (pac : PacFn) (as : List (Nat × Act)) :
    (runs pac P init as).isSome := by
  obtain ⟨m, e, _⟩ := runs_inv (pac := pac) hP as init (init_inv pac)
  simp [e]

/-- The code of RMM proper runs with authentication on and with this CPU's key in effect, a key that was drawn since
the CPU was started. -/
theorem C79_own_key {P : Prog} (hP : PlainProg P) (pac : PacFn) (as : List (Nat × Act)) (m : M) (i : Nat)
    (k : List Item) (hr : runs pac P init as = some m) (hk : (m.cpu i).k = .code (.other .rmm) :: k) :
    (m.cpu i).een = true ∧ join (m.cpu i).ehi (m.cpu i).elo = m.apia i ∧ (m.cpu i).drawn = true := by
  obtain ⟨m', e, hI⟩ := runs_inv (pac := pac) hP as init (init_inv pac)
  obtain rfl := Option.some.inj (e.symm.trans hr)
  obtain ⟨s, A, hs, hw⟩ := hI i
  rw [hk] at hw
  cases hw with
  | code he _ =>
    by_cases hA : A.safe = true
    · have := hs.eff_key hA
      refine ⟨this.1, this.2, hs.drawn ?_⟩
      simp only [Abs.safe, Bool.and_eq_true] at hA
      exact hA.2
    · simp [eff, hA] at he

/-- Each signature made and each one checked is made and checked with this CPU's key. -/
theorem C79_signs_with_own_key {P : Prog} (hP : PlainProg P) (pac : PacFn) (as : List (Nat × Act)) (m : M) (i : Nat)
    (k : List Item) (hr : runs pac P init as = some m)
    (hk : (∃ b, (m.cpu i).k = .code (.fn true b) :: k) ∨ ∃ f, (m.cpu i).k = .ret f :: k)
    (hen : (m.cpu i).een = true) : join (m.cpu i).ehi (m.cpu i).elo = m.apia i := by
  obtain ⟨m', e, hI⟩ := runs_inv (pac := pac) hP as init (init_inv pac)
  obtain rfl := Option.some.inj (e.symm.trans hr)
  obtain ⟨s, A, hs, hw⟩ := hI i
  rcases hk with ⟨b, hk⟩ | ⟨f, hk⟩ <;> rw [hk] at hw
  · cases hw with
    | code he _ =>
      by_cases hA : A.safe = true
      · exact (hs.eff_key hA).2
      · by_cases ho : A.off = true
        · rw [hs.off ho] at hen; cases hen
        · simp [eff, hA, ho] at he
  · cases hw with
    | signed ha => exact (hs.eff_key ha).2
    | unsigned ha => rw [hs.off ha] at hen; cases hen

/-- A return address that was replaced on the stack by one that does not carry the code for this CPU's key, that
address and that stack pointer stops the CPU at the return. -/
theorem C79_forged_fails {P : Prog} (hP : PlainProg P) (pac : PacFn) (as : List (Nat × Act)) (m : M) (i : Nat)
    (k : List Item) (f g : Frame) (o : Choice) (hr : runs pac P init as = some m)
    (hk : (m.cpu i).k = .ret f :: k) (hen : (m.cpu i).een = true)
    (hg : g.field ≠ pac (m.apia i) g.lr g.sp) :
    step pac P { m with cpu := upd m.cpu i { m.cpu i with k := .ret g :: k } } i (.go o) = none := by
  have e := C79_signs_with_own_key hP pac as m i k hr (.inr ⟨f, hk⟩) hen
  simp [step, next, exec, authOk, hen, e, hg]

/-- The key of a CPU is changed by that CPU alone, while authentication is off there. -/
theorem C79_key_changes {P : Prog} (hP : PlainProg P) (pac : PacFn) (as : List (Nat × Act)) (m m' : M) (i j : Nat)
    (a : Act) (hr : runs pac P init as = some m) (hs : step pac P m j a = some m') (hne : m'.apia i ≠ m.apia i) :
    j = i ∧ (m.cpu i).een = false ∧ ∃ k, (m.cpu i).k = .code .draw :: k := by
  obtain ⟨m1, e, hI⟩ := runs_inv (pac := pac) hP as init (init_inv pac)
  obtain rfl := Option.some.inj (e.symm.trans hr)
  cases a with
  | settle l t e => obtain rfl := Option.some.inj hs; exact absurd rfl hne
  | start => obtain rfl := Option.some.inj hs; exact absurd rfl hne
  | go o =>
    obtain ⟨s, A, hsat, hw⟩ := hI j
    simp only [step] at hs
    unfold next at hs
    generalize hk : (m1.cpu j).k = k at hw hs
    match k, hw, hs with
    | [], _, hs => obtain rfl := Option.some.inj hs; exact absurd rfl hne
    | .ret f :: k, _, hs =>
      simp only [exec] at hs
      split at hs
      · obtain rfl := Option.some.inj hs; exact absurd rfl hne
      · cases hs
    | .code q :: k, hw, hs =>
      cases hw with
      | code he hr' =>
        cases q with
        | draw =>
          obtain rfl := Option.some.inj hs
          by_cases hj : i = j
          · subst hj
            by_cases hA : (A.off && !s) = true
            · simp only [Bool.and_eq_true] at hA
              exact ⟨rfl, hsat.off hA.1, k, hk⟩
            · simp only [eff] at he; rw [if_neg hA] at he; cases he
          · exact absurd (upd_ne _ _ hj) hne
        | fn p b => cases p <;> (obtain rfl := Option.some.inj hs; exact absurd rfl hne)
        | keyLo x => cases x <;> (obtain rfl := Option.some.inj hs; exact absurd rfl hne)
        | keyHi x => cases x <;> (obtain rfl := Option.some.inj hs; exact absurd rfl hne)
        | _ => obtain rfl := Option.some.inj hs; exact absurd rfl hne

/-! ## A concrete program -/

/-- Functions call functions, in loops. -/
def demo : Prog :=
  let c (w : Where) : Code := .fn true (.seq (.loop (.fn true (.other w))) (.alt (.other w) (.fn false (.other w))))
  ⟨fun _ => c .boot, fun _ => c .rmm, c .rmm, c .rmm, c .rmm, c .rmm, c .rmm, c .rmm, c .rmm⟩

theorem demo_plain : PlainProg demo := by
  constructor <;> simp [demo, Plain]

/-- A code that depends on key, address and modifier. -/
def demoPac : PacFn := fun k lr sp => (k.setWidth 16 + (k >>> 64).setWidth 16 + lr.setWidth 16 + sp.setWidth 16) ||| 1

def start (i : Nat) : Nat × Act := (i, .start true 1 2 3 4 true true)

/-- CPU 0 is started, draws the key 6, 5 and gets on for `n` steps: it leaves all loops at once but the one of
`rmm_handler` and the one of `rec_run_loop`; the key of the realm is 2, 1 and the realm writes 8, 9. -/
def script (n : Nat) : List (Nat × Act) :=
  start 0 :: (List.range n).map fun t =>
    (0, .go { b := t == 44 || t == 69, lr := 0x77, sp := 0x1000, v := if t < 60 then 5 else 1, w := if t < 60 then 6 else 2,
              v' := 9, w' := 8 })

/-- The signed return addresses on the stack. -/
def rets (c : Cpu) : List Frame := c.k.filterMap fun | .ret f => some f | _ => none

/-- In the realm: `handle_ns_smc` and `rec_run_loop` have their return addresses on the stack, signed with the key of
RMM, and the key in effect is that of the realm. -/
example : ((runs demoPac demo init (script 93)).map fun m =>
    ((m.cpu 0).een, join (m.cpu 0).ehi (m.cpu 0).elo, m.apia 0, rets (m.cpu 0))) =
    some (true, join 8 9, join 6 5, List.replicate 2 ⟨0x77, 0x1000, demoPac (join 6 5) 0x77 0x1000⟩) := by
  decide +kernel

/-- The hypotheses of C79_own_key: after the realm, in `handle_realm_exit`. -/
example : ((runs demoPac demo init (script 109)).map fun m => (m.cpu 0).k.head?) =
    some (some (.code (.other .rmm))) := by decide +kernel

/-- The hypotheses of C79_signs_with_own_key and C79_forged_fails, with a forged address that is found out. -/
example : ((runs demoPac demo init (script 110)).map fun m => ((m.cpu 0).een, (m.cpu 0).k.head?, m.apia 0)) =
    some (true, some (.ret ⟨0x77, 0x1000, demoPac (join 6 5) 0x77 0x1000⟩), join 6 5) := by decide +kernel

example : (0x1234 : BitVec 16) ≠ demoPac (join 6 5) 0x666 0x1000 := by decide

/-- The hypotheses of C79_key_changes. -/
example : ((runs demoPac demo init (script 19)).map fun m => ((m.cpu 0).k.head?, m.apia 0)) =
    some (some (.code .draw), 0) ∧
    ((runs demoPac demo init (script 20)).map fun m => m.apia 0) = some (join 6 5) := by decide +kernel

/-! ## Why it takes `PAUTH_NONE_ATTR` and `isb` -/

/-- CPU 0, up and running, about to do `c`. -/
def at_ (c : Code) : M :=
  ⟨fun _ => ⟨5, 6, 5, 6, true, true, [.code c], true⟩, fun _ => join 6 5⟩

/-- Steps with the same choice for all. -/
def goes (n : Nat) (m : M) : Option M :=
  runs demoPac demo m (List.replicate n (0, .go { lr := 0x77, sp := 0x1000, v := 1, w := 2, v' := 9, w' := 8 }))

/-- `pauth_restore_realm_keys` with the attribute left out fails when it returns. -/
theorem C79_attribute_needed :
    goes 9 (at_ (.fn true (.seq (.keyLo .realm) (.seq (.keyHi .realm) (.seq (.other .gap) .isb))))) = none := by
  have : (goes 9 (at_ (.fn true (.seq (.keyLo .realm) (.seq (.keyHi .realm) (.seq (.other .gap) .isb)))))).isSome = false := by
    decide +kernel
  simpa using this

/-- A function called in the gap that returns after the keys are back would fail, and so would one that signs before
the `isb` of `pauth_restore_rmm_keys` and returns after it. -/
theorem C79_isb_needed :
    goes 12 (at_ (.seq .realm (.seq (.seq (.keyLo .rmm) (.keyHi .rmm)) (.fn true (.isb))))) = none := by
  have : (goes 12 (at_ (.seq .realm (.seq (.seq (.keyLo .rmm) (.keyHi .rmm)) (.fn true (.isb)))))).isSome = false := by
    decide +kernel
  simpa using this

end Verif.Pac
