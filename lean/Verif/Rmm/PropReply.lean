import Verif.Rmm.PropHist

/-!
# C14: what the realm is told about its RIPAS change requests
-/

namespace Verif.Rmm

section
variable {P : Plat} {s s' : State} {ret : Ret} {ti : Nat → TabInfo} {di : Nat → Nat × Nat} {rl : Nat → List Nat}
open Demo

/-- The page has this RIPAS, with or without memory behind it. -/
def HasRipas (s : State) (r a : Nat) (v : Ripas) : Prop :=
  view s r a = some (.unassigned v) ∨ ∃ y, view s r a = some (.assigned v y)

/-- The request of REC `q` of realm `r` as it stands, with the pages below the progress
address dealt with. -/
structure Serving (s : State) (q r b0 t0 : Nat) (v : Ripas) (c : Bool) : Prop where
  st : s.st q = .recd
  rd : (recOf s q).rd = r
  base : (recOf s q).sr.base = b0
  top : (recOf s q).sr.top = t0
  ripas : (recOf s q).sr.ripas = v
  chg : (recOf s q).sr.chg = c
  lo : b0 ≤ (recOf s q).sr.addr
  hi : (recOf s q).sr.addr ≤ t0
  done : ∀ a, b0 ≤ a → a < (recOf s q).sr.addr → HasRipas s r a v ∨ HasRipas s r a .destroyed

/-- A page's RIPAS, in a realm past NEW, changes to DESTROYED or as a REC asked. -/
theorem ripas_step (hP : PlatOk P) (hr : Reach P s) {op : Op} (e : step P s op = some (s', ret)) {r a : Nat} {v : Ripas}
    (hrd : s.st r = .rd) (hrd' : s'.st r = .rd) (hn : (rdOf s r).state ≠ .new)
    (hv : HasRipas s r a v ∨ HasRipas s r a .destroyed) :
    (HasRipas s' r a v ∨ HasRipas s' r a .destroyed) ∨
    ∃ q b t, op = .rttSetRipas r q b t ∧ (recOf s q).rd = r ∧ HasRipas s' r a (recOf s q).sr.ripas := by
  obtain ⟨ti, di, rl, h⟩ := hr.inv hP
  rcases view_step hP hr e r a with h1 | ⟨h0, h1⟩
  · left; unfold HasRipas; rw [h1]; exact hv
  · cases h1 with
    | set k1 k2 k3 k4 k6 k7 k8 k9 => exact Or.inr ⟨_, _, _, rfl, k2, Or.inl k9⟩
    | setAssigned k1 k2 k3 k4 k6 k7 k8 k9 => exact Or.inr ⟨_, _, _, rfl, k2, Or.inr ⟨_, k9⟩⟩
    | dataDestroy k1 k2 k3 k4 =>
      left
      rcases hv with (hv | ⟨y, hv⟩) | (hv | ⟨y, hv⟩) <;> rw [k3] at hv <;> cases hv
      · split at k4
        · exact Or.inr (Or.inl k4)
        · exact Or.inl (Or.inl k4)
      · exact Or.inr (Or.inl k4)
    | dataUnknown k1 k2 k3 k4 k5 k6 =>
      left
      rcases hv with (hv | ⟨y, hv⟩) | (hv | ⟨y, hv⟩) <;> rw [k5] at hv <;> cases hv
      · exact Or.inl (Or.inr ⟨_, k6⟩)
      · exact Or.inr (Or.inr ⟨_, k6⟩)
    | rttDestroy _ _ _ _ k => exact Or.inl (Or.inr (Or.inl k))
    | data _ _ _ _ k | init _ _ k => exact absurd k hn
    | destroy k =>
      rcases step_eff hP h e with ⟨rfl, hs⟩ | k
      · exact absurd h0 (hs rfl)
      · have k : RealmDestroyOk s r s' ret := k
        rw [k.st] at hrd'
        simp [realmDestroySt, upd] at hrd'
    | create k => rw [hrd] at k; cases k
    | map _ _ _ k | unmap _ _ _ k =>
      rcases hv with (hv | ⟨y, hv⟩) | (hv | ⟨y, hv⟩) <;> rw [k] at hv <;> cases hv
    | rttDestroyNs _ _ k1 k2 =>
      rcases hv with (hv | ⟨y, hv⟩) | (hv | ⟨y, hv⟩) <;>
        rcases C04_unprotected_half hP hr k1 hv with h3 | ⟨_, _, h3⟩ <;> cases h3

/-- A REC other than the one destroyed stays. -/
theorem rec_stays (hP : PlatOk P) (hr : Reach P s) {op : Op} (e : step P s op = some (s', ret)) {q : Nat}
    (hq : s.st q = .recd) (hop : op ≠ .recDestroy q) : s'.st q = .recd := by
  obtain ⟨ti, di, rl, h⟩ := hr.inv hP
  rcases step_eff hP h e with ⟨rfl, _⟩ | k
  · exact hq
  rcases k.st_step h q with h1 | h1
  · rw [h1, hq]
  · cases h1 with
    | @recDestroy r h2 =>
      have k : RecDestroyOk s r s' ret := k
      have hne : q ≠ r := fun hc => hop (by rw [hc])
      rw [k.st]
      show upd (fun a => if a ∈ (recOf s r).aux then GSt.delegated else s.st a) r .delegated q = .recd
      rw [upd_ne _ _ _ hne, if_neg, hq]
      intro hm
      have := (h.recs r k.recd).auxSt q hm
      rw [hq] at this; cases this
    | realmDestroy h2 => rw [hq] at h2; rcases h2 with h2 | h2 <;> cases h2
    | _ h2 => rw [hq] at h2; cases h2

theorem serving_step (hP : PlatOk P) (hr : Reach P s) {op : Op} (e : step P s op = some (s', ret))
    {q r base top : Nat} {v : Ripas} {c : Bool} (hs : Serving s q r base top v c) (hn : (rdOf s r).state ≠ .new)
    (hop : op ≠ .recDestroy q) (ho : ∀ q' b t, op = .rttSetRipas r q' b t → q' = q)
    (h0 : s.rc q = 0) (h1 : s'.rc q = 0) : Serving s' q r base top v c ∧ (rdOf s' r).state ≠ .new := by
  have hq := rec_stays hP hr e hs.st hop
  obtain ⟨ti, di, rl, h⟩ := hr.inv hP
  obtain ⟨ti', di', rl', h'⟩ := (Reach.step hr e).inv hP
  have hrd : s.st r = .rd := hs.rd ▸ (h.recs q hs.st).rd
  have key : (recOf s' q).rd = (recOf s q).rd ∧ (recOf s' q).sr.base = (recOf s q).sr.base ∧
      (recOf s' q).sr.top = (recOf s q).sr.top ∧ (recOf s' q).sr.ripas = (recOf s q).sr.ripas ∧
      (recOf s' q).sr.chg = (recOf s q).sr.chg ∧
      ((recOf s' q).sr.addr = (recOf s q).sr.addr ∨
       ∃ b t, op = .rttSetRipas r q b t ∧ ret.status = 0 ∧ (recOf s' q).sr.addr = ret.x1) := by
    rcases step_eff hP h e with ⟨rfl, _⟩ | k
    · exact ⟨rfl, rfl, rfl, rfl, rfl, Or.inl rfl⟩
    have k' := k
    rcases k.rec_step h hq with ⟨_, h2, _⟩ | h2
    · rw [h2]; exact ⟨rfl, rfl, rfl, rfl, rfl, Or.inl rfl⟩
    · cases h2 with
      | create h2 => rw [hs.st] at h2; cases h2
      | @setRipas rd b t _ _ _ h2 =>
        obtain ⟨d, g, m, k⟩ : ∃ d g m, SetOk s ti rd q b t d g m s' ret := k
        have : rd = r := by rw [← k.own]; exact hs.rd
        subst this
        have h0 : ret.status = 0 := by
          rcases k'.status with h3 | ⟨_, _, _, h3⟩
          · exact h3
          · cases h3
        rw [h2]; exact ⟨rfl, rfl, rfl, rfl, rfl, Or.inr ⟨_, _, rfl, h0, rfl⟩⟩
      | psciCall _ _ _ _ h2 => rw [h2]; exact ⟨rfl, rfl, rfl, rfl, rfl, Or.inl rfl⟩
      | psciTarget _ _ _ _ _ h2 => rw [h2]; exact ⟨rfl, rfl, rfl, rfl, rfl, Or.inl rfl⟩
      | enter _ _ h2 => rw [h1] at h2; cases h2
      | run _ h2 | psciReq _ h2 | ipaStateSet _ h2 | ipaStateSetErr _ h2 | systemOff _ h2 => rw [h0] at h2; cases h2
  obtain ⟨a1, a2, a3, a4, a5, a6⟩ := key
  have hrd' : s'.st r = .rd := by
    have := (h'.recs q hq).rd
    rwa [a1, hs.rd] at this
  have hn' : (rdOf s' r).state ≠ .new := by
    rcases step_eff hP h e with ⟨rfl, h2⟩ | k
    · exact hn
    · refine (not_new_again hP hr e hrd hn ?_).2
      rintro rfl
      have k : RealmDestroyOk s r s' ret := k
      rw [k.st] at hrd'
      simp [realmDestroySt, upd] at hrd'
  refine ⟨?_, hn'⟩
  have old : ∀ a, base ≤ a → a < (recOf s q).sr.addr → HasRipas s' r a v ∨ HasRipas s' r a .destroyed := by
    intro a h3 h4
    rcases ripas_step hP hr e hrd hrd' hn (hs.done a h3 h4) with h5 | ⟨q', b, t, rfl, h6, h7⟩
    · exact h5
    · have := ho q' b t rfl
      subst this
      rw [hs.ripas] at h7; exact Or.inl h7
  have lo := hs.lo
  have hi := hs.hi
  rcases a6 with a6 | ⟨b, t, rfl, hz, a6⟩
  · exact ⟨hq, a1.trans hs.rd, a2.trans hs.base, a3.trans hs.top, a4.trans hs.ripas, a5.trans hs.chg, by omega, by omega,
      by rw [a6]; exact old⟩
  · obtain ⟨_, _, _, k1, k2, k3, k4, _, k5, _⟩ := C14_set_ripas hP hr e hz
    refine ⟨hq, a1.trans hs.rd, a2.trans hs.base, a3.trans hs.top, a4.trans hs.ripas, a5.trans hs.chg, by omega, ?_, ?_⟩
    · have := hs.top; omega
    · intro a h3 h4
      by_cases h5 : a < (recOf s q).sr.addr
      · exact old a h3 h5
      · obtain ⟨_, _, h6 | ⟨y, _, h6⟩⟩ := k5 a (by omega) (by omega)
        · rw [hs.ripas] at h6; exact Or.inl (Or.inl h6.2)
        · rw [hs.ripas] at h6; exact Or.inl (Or.inr ⟨y, h6⟩)

/-- C14: from an accepted RSI_IPA_STATE_SET of REC `q` on, as long as the request is pending
and the host carries out no request of another REC of the realm, every page between the
start of the range and the progress address has the requested RIPAS, or DESTROYED
(because the host took its memory or table away in the meantime). -/
theorem C14_progress (hP : PlatOk P) {t s1 s2 : State} (hr : Reach P t) {q base top : Nat} {v : Ripas} {c : Bool}
    {ret : Ret} (hq : t.st q = .recd) (hrc : t.rc q = 1)
    (e : step P t (.rsiIpaStateSet q base top v c) = some (s1, ret))
    (hacc : s1.rc q = 0)
    (hrun : Run P (fun u op => u.rc q = 0 ∧ op ≠ .recDestroy q ∧
      ∀ q' b t', op = .rttSetRipas (recOf t q).rd q' b t' → q' = q) s1 s2) (h2 : s2.rc q = 0) :
    s2.st q = .recd ∧ (recOf s2 q).rd = (recOf t q).rd ∧ (recOf s2 q).sr.base = base ∧ (recOf s2 q).sr.top = top ∧
    (recOf s2 q).sr.ripas = v ∧ (recOf s2 q).sr.chg = c ∧
    base ≤ (recOf s2 q).sr.addr ∧ (recOf s2 q).sr.addr ≤ top ∧ base < top ∧
    ∀ a, base ≤ a → a < (recOf s2 q).sr.addr →
      HasRipas s2 (recOf t q).rd a v ∨ HasRipas s2 (recOf t q).rd a .destroyed := by
  obtain ⟨ti, di, rl, h⟩ := hr.inv hP
  have hr1 := Reach.step hr e
  have hq1 := rec_stays hP hr e hq (by simp)
  have start : Serving s1 q (recOf t q).rd base top v c ∧ (rdOf s1 (recOf t q).rd).state ≠ .new ∧ base < top := by
    rcases step_eff hP h e with ⟨rfl, _⟩ | k
    · omega
    rcases k.rec_step h hq1 with ⟨_, hx, hy⟩ | hx
    · omega
    · cases hx with
      | ipaStateSet k1 k2 k3 k4 k5 k6 k7 k8 k9 =>
        refine ⟨⟨hq1, by rw [k9], by rw [k9], by rw [k9], by rw [k9], by rw [k9], by rw [k9], by rw [k9]; exact k7.le, ?_⟩, ?_, k7⟩
        · rw [k9]; intro a h3 h4; simp only at h4; omega
        · exact (not_new_again hP hr e (h.recs q hq).rd ((h.recs q hq).run k2) (by simp)).2
      | ipaStateSetErr _ _ k3 => rw [hacc] at k3; cases k3
  obtain ⟨start, hn, hlt⟩ := start
  have key : Serving s2 q (recOf t q).rd base top v c ∧ (rdOf s2 (recOf t q).rd).state ≠ .new := by
    induction hrun with
    | refl => exact ⟨start, hn⟩
    | tail hrun ok e2 ih =>
      obtain ⟨i1, i2⟩ := ih ok.1
      exact serving_step hP (hrun.reach hr1) e2 i1 i2 ok.2.1 ok.2.2 ok.1 h2
  obtain ⟨⟨a1, a2, a3, a4, a5, a6, a7, a8, a9⟩, _⟩ := key
  exact ⟨a1, a2, a3, a4, a5, a6, a7, a8, hlt, a9⟩

/-- A REC has no request, or one for a range that is not empty. -/
theorem sr_shape (hP : PlatOk P) (hr : Reach P s) {q : Nat} (hq : s.st q = .recd) :
    ((recOf s q).sr.base = 0 ∧ (recOf s q).sr.top = 0) ∨ (recOf s q).sr.base < (recOf s q).sr.top := by
  induction hr with
  | init h => rw [h.st] at hq; cases hq
  | step hr e ih =>
    obtain ⟨ti, di, rl, h⟩ := hr.inv hP
    rcases step_eff hP h e with ⟨rfl, _⟩ | k
    · exact ih hq
    · rcases k.rec_step h hq with ⟨h1, h2, _⟩ | h1
      · rw [h2]; exact ih h1
      · cases h1 with
        | create _ h2 => rw [h2]; exact Or.inl ⟨rfl, rfl⟩
        | setRipas h1 _ _ h2 => rw [h2]; exact ih h1
        | psciCall h1 _ _ _ h2 => rw [h2]; exact ih h1
        | psciTarget h1 _ _ _ _ h2 => rw [h2]; exact ih h1
        | enter h1 _ _ _ _ _ h2 =>
          rw [h2]; unfold completeSetRipas
          split
          · exact ih h1
          · exact Or.inl ⟨rfl, rfl⟩
        | run h1 _ _ h2 => rw [h2]; exact ih h1
        | psciReq h1 _ _ _ h2 => rw [h2]; exact ih h1
        | ipaStateSetErr h1 _ _ h2 => rw [h2]; exact ih h1
        | systemOff h1 _ _ h2 => rw [h2]; exact ih h1
        | ipaStateSet h1 h3 _ _ _ _ hlt _ h2 => rw [h2]; exact Or.inr hlt

/-- C14: when the host enters a REC with a pending request, X0 says success, X1 how far the
change has been carried out and X2 whether the host refused the rest (which it can only
for a change to RAM); the other registers are untouched and the request is over.  Without
a pending request the registers are left alone. -/
theorem C14_reply (hP : PlatOk P) (hr : Reach P s) {q run : Nat} {acc rej : Bool}
    (e : step P s (.recEnter q run acc rej) = some (s', ret)) (h0 : ret.status = 0) :
    s'.st q = .recd ∧ s'.rc q = 1 ∧
    ((recOf s q).sr.base ≠ (recOf s q).sr.top →
      (recOf s' q).regs 0 = 0 ∧ (recOf s' q).regs 1 = BitVec.ofNat 64 (recOf s q).sr.addr ∧
      ((recOf s' q).regs 2 = 1 ∨ (recOf s' q).regs 2 = 0) ∧
      ((recOf s' q).regs 2 = 1 ↔ (recOf s q).sr.ripas = .ram ∧ (recOf s q).sr.addr < (recOf s q).sr.top ∧ rej = true) ∧
      (∀ i, 2 < i → (recOf s' q).regs i = (recOf s q).regs i) ∧
      (recOf s' q).sr.base = (recOf s' q).sr.top) ∧
    ((recOf s q).sr.base = (recOf s q).sr.top →
      ∀ i, (recOf s' q).regs i = (recOf s q).regs i) := by
  obtain ⟨ti, di, rl, h⟩ := hr.inv hP
  obtain ⟨_, k⟩ := step_eff' hP h e rfl h0
  have k : EnterOk P s q run rej s' ret := k
  have hm : recOf s' q = completeSetRipas { recOf s q with sr := { (recOf s q).sr with reject := rej } } :=
    recOf_of_mem (by rw [k.st]; exact upd_same _ _ _)
  have hsr := (h.recs q k.recd.2).sr
  refine ⟨by rw [k.st]; exact k.recd.2, by rw [k.st]; exact upd_same _ _ _, ?_, ?_⟩
  · intro hb
    rw [hm]
    unfold completeSetRipas
    rw [if_neg hb]
    refine ⟨rfl, rfl, ?_, ?_, ?_, rfl⟩
    · simp only [Nat.reduceEqDiff, if_false, if_true, OfNat.ofNat_ne_zero]
      split <;> simp
    · simp only [Nat.reduceEqDiff, if_false, if_true, OfNat.ofNat_ne_zero]
      have hle : (recOf s q).sr.addr ≤ (recOf s q).sr.top := by
        rcases sr_shape hP hr k.recd.2 with h1 | h1
        · omega
        · exact (hsr.le (by omega)).2
      constructor
      · intro hx
        split at hx
        · rename_i hc; exact ⟨hc.1, by have := hc.2.1; omega, hc.2.2⟩
        · cases hx
      · intro hx
        rw [if_pos ⟨hx.1, by omega, hx.2.2⟩]
    · intro i hi
      simp only
      rw [if_neg (by omega), if_neg (by omega), if_neg (by omega)]
  · intro hb i
    rw [hm]
    unfold completeSetRipas
    rw [if_pos hb]

/-- REC 32 asks for 0..8192 to become EMPTY; the host carries out the first page, and enters
the REC again. -/
def asked : List Op := all ++ [.realmActivate (G 16), .recEnter (G 32) (G 2) true false]

example : ∃ t s1 s2 ret, Reach plat t ∧ t.st (G 32) = .recd ∧ t.rc (G 32) = 1 ∧
    step plat t (.rsiIpaStateSet (G 32) 0 8192 .empty false) = some (s1, ret) ∧ s1.rc (G 32) = 0 ∧
    Run plat (fun u op => u.rc (G 32) = 0 ∧ op ≠ .recDestroy (G 32) ∧
      ∀ q' b t', op = .rttSetRipas (recOf t (G 32)).rd q' b t' → q' = G 32) s1 s2 ∧ s2.rc (G 32) = 0 ∧
    (recOf s2 (G 32)).sr.addr = 4096 ∧ view s2 (G 16) 0 = some (.assigned .empty (G 22)) := by
  obtain ⟨l, hl⟩ : ∃ l, l = asked := ⟨_, rfl⟩
  have key : (run plat boot l).any (fun t => t.st (G 32) == .recd && t.rc (G 32) == 1 &&
      (step plat t (.rsiIpaStateSet (G 32) 0 8192 .empty false)).any (fun x => x.1.rc (G 32) == 0 &&
        (step plat x.1 (.rttSetRipas (G 16) (G 32) 0 4096)).any (fun y => y.1.rc (G 32) == 0 &&
          (recOf y.1 (G 32)).sr.addr == 4096 && view y.1 (G 16) 0 == some (.assigned .empty (G 22))))) = true := by
    rw [hl]; decide +kernel
  clear hl
  cases h1 : run plat boot l with
  | none => rw [h1] at key; cases key
  | some t =>
    rw [h1] at key
    simp only [Option.any_some, Bool.and_eq_true, beq_iff_eq] at key
    obtain ⟨⟨k1, k2⟩, key⟩ := key
    cases h2 : step plat t (.rsiIpaStateSet (G 32) 0 8192 .empty false) with
    | none => rw [h2] at key; cases key
    | some x =>
      rw [h2] at key
      simp only [Option.any_some, Bool.and_eq_true, beq_iff_eq] at key
      obtain ⟨k3, key⟩ := key
      cases h3 : step plat x.1 (.rttSetRipas (G 16) (G 32) 0 4096) with
      | none => rw [h3] at key; cases key
      | some y =>
        rw [h3] at key
        simp only [Option.any_some, Bool.and_eq_true, beq_iff_eq] at key
        obtain ⟨⟨k4, k5⟩, k6⟩ := key
        refine ⟨t, x.1, y.1, x.2, run_reach l (.init boot_init) h1, k1, k2, h2, k3,
          .tail .refl ⟨k3, by simp, ?_⟩ h3, k4, k5, k6⟩
        intro q' b t' h4
        injection h4 with _ h4
        exact h4.symm

example : ∃ s s' ret, Reach plat s ∧ step plat s (.recEnter (G 32) (G 2) true true) = some (s', ret) ∧
    (ret.status == 0 && (recOf s (G 32)).sr.base != (recOf s (G 32)).sr.top &&
      (recOf s' (G 32)).regs 1 == 4096 && (recOf s' (G 32)).regs 2 == 0) = true :=
  Demo.ex_step (asked ++ [.rsiIpaStateSet (G 32) 0 8192 .empty false, .rttSetRipas (G 16) (G 32) 0 4096]) _
    (fun s s' ret => ret.status == 0 && (recOf s (G 32)).sr.base != (recOf s (G 32)).sr.top &&
      (recOf s' (G 32)).regs 1 == 4096 && (recOf s' (G 32)).regs 2 == 0) (by decide +kernel)

end
end Verif.Rmm
