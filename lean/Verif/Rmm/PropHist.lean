import Verif.Rmm.ViewStep

/-!
# Properties of histories (C04, C10, C14, C15)

`Run P ok s t`: some finite sequence of operations leads from `s` to `t`, each of which
satisfies `ok` in the state in which it is performed.
-/

namespace Verif.Rmm

/-- A history from `s`, every operation of which satisfies `ok`. -/
inductive Run (P : Plat) (ok : State → Op → Prop) (s : State) : State → Prop
  | refl : Run P ok s s
  | tail {t t' op ret} : Run P ok s t → ok t op → step P t op = some (t', ret) → Run P ok s t'

section
variable {P : Plat} {s s' : State} {ret : Ret} {ti : Nat → TabInfo} {di : Nat → Nat × Nat} {rl : Nat → List Nat}
open Demo

theorem Run.reach {ok : State → Op → Prop} (h : Reach P s) {t : State} (r : Run P ok s t) : Reach P t := by
  induction r with
  | refl => exact h
  | tail _ _ e ih => exact .step ih e

theorem Reach.run (h : Reach P s) : ∃ s0, Init P s0 ∧ Run P (fun _ _ => True) s0 s := by
  induction h with
  | init h => exact ⟨_, h, .refl⟩
  | step _ e ih => obtain ⟨s0, h0, r⟩ := ih; exact ⟨s0, h0, .tail r trivial e⟩

theorem view_init (h : Init P s) (r a : Nat) : view s r a = none := by
  obtain ⟨ti, di, rl, hi⟩ := h.inv
  unfold view
  rw [leaf_not_rd hi (by rw [h.st]; simp)]

/-! ## C04: where unprotected mappings come from -/

/-- C04: every live unprotected mapping was put there by a successful
RTT_MAP_UNPROTECTED of that realm covering that page, whose descriptor gave its output address
and attributes, and has been there ever since. -/
theorem C04_ns_origin (hP : PlatOk P) (hr : Reach P s) {r a x : Nat} {at_ : BitVec 64}
    (hv : view s r a = some (.assignedNs at_ x)) :
    ∃ t t' ret b lvl desc, Reach P t ∧ step P t (.rttMapUnprotected r b lvl desc) = some (t', ret) ∧
      ret.status = 0 ∧ b ≤ a ∧ a < b + entrySize lvl ∧ parOf t r ≤ a ∧
      at_ = desc &&& S2tte.NS_ATTR_MASK ∧
      x = (S2tte.toPa desc lvl (rdOf t r).lpa2).toNat + (a - b) / 4096 * 4096 ∧
      Run P (fun u _ => view u r a = some (.assignedNs at_ x)) t' s := by
  induction hr with
  | init h => rw [view_init h] at hv; cases hv
  | step hr e ih =>
    rename_i u u' op ret
    rcases view_step hP hr e r a with h1 | ⟨h0, h1⟩
    · rw [h1] at hv
      obtain ⟨t, t', ret', b, lvl, desc, h2, h3, h4, h5, h6, h7, h8, h9, h10⟩ := ih hv
      exact ⟨t, t', ret', b, lvl, desc, h2, h3, h4, h5, h6, h7, h8, h9, .tail h10 hv e⟩
    · cases h1 with
      | map k1 k2 k3 k4 k5 k6 k7 =>
        rw [hv] at k5; cases k5
        exact ⟨u, u', _, _, _, _, hr, e, h0, k1, k2, k3, k6, k7, .refl⟩
      | unmap k1 k2 k3 k4 k5 | rttDestroy k1 k2 k3 k4 k5 | dataUnknown k1 k2 k3 k4 k6 k5 | data k1 k2 k3 k4 k6 k7 k5
      | dataDestroy k1 k2 k3 k5 | init k1 k2 k3 k4 k5 | set k1 k2 k3 k4 k6 k7 k8 k5
      | setAssigned k1 k2 k3 k4 k6 k7 k8 k5 | destroy k5 | rttDestroyNs k1 k2 k3 k5 =>
        rw [hv] at k5; cases k5
      | create k1 k2 k5 => rw [hv] at k5; rcases k5 with k5 | k5 <;> cases k5

/-! ## C10: contents of protected pages -/

/-- C10: in a realm that is no longer NEW, a protected page that has memory after a step
either had the same granule before, whose contents are unchanged unless a REC of that
very realm wrote to the page, or is a zeroed granule just added by
DATA_CREATE_UNKNOWN. -/
theorem C10_no_host_data_once_active (hP : PlatOk P) (hr : Reach P s) {op : Op} (e : step P s op = some (s', ret))
    {r a x : Nat} {rp : Ripas} (hn : (rdOf s r).state ≠ .new) (hd : s.st r = .rd) (hv : view s' r a = some (.assigned rp x)) :
    (∃ rp0, view s r a = some (.assigned rp0 x) ∧
      (s'.mem x = s.mem x ∨
        ∃ q b p, op = .realmWrite q b p ∧ (recOf s q).rd = r ∧ s.rc q = 1 ∧
          view s r b = some (.assigned .ram x))) ∨
    (∃ b, op = .dataCreateUnknown r x b ∧ s'.mem x = .page 0) := by
  obtain ⟨ti, di, rl, h⟩ := hr.inv hP
  have hr' : Reach P s' := .step hr e
  obtain ⟨ti', di', rl', h'⟩ := hr'.inv hP
  have hsame : ∀ rp0, view s r a = some (.assigned rp0 x) → (s'.mem x = s.mem x ∨
        ∃ q b p, op = .realmWrite q b p ∧ (recOf s q).rd = r ∧ s.rc q = 1 ∧
          view s r b = some (.assigned .ram x)) := by
    intro rp0 h0
    have h1 := view_assigned h h0
    have h2 := view_assigned h' hv
    rcases step_eff hP h e with ⟨rfl, _⟩ | k
    · exact Or.inl rfl
    · rcases k.data_mem h h1.2.2.1 h2.2.2.1 with h3 | ⟨q, b, p, h3, h4, h5, h6, h7, h8⟩
      · exact Or.inl h3
      · rw [h1.2.2.2] at h6
        exact Or.inr ⟨q, b, p, h3, h6, h5, by rw [h6] at h7; exact h7⟩
  rcases view_step hP hr e r a with h1 | ⟨h0, h1⟩
  · rw [h1] at hv
    exact Or.inl ⟨rp, hv, hsame rp hv⟩
  · cases h1 with
    | dataUnknown k1 k2 k3 k4 k6 k5 =>
      rw [hv] at k5; cases k5
      exact Or.inr ⟨_, rfl, k4⟩
    | data k1 k2 k3 k4 k6 => exact absurd k6 hn
    | setAssigned k1 k2 k3 k4 k6 k7 k8 k5 =>
      rw [hv] at k5
      injection k5 with k5
      injection k5 with _ k5
      subst k5
      exact Or.inl ⟨_, k8, hsame _ k8⟩
    | create k1 _ _ => rw [hd] at k1; cases k1
    | unmap k1 k2 k3 k4 k5 | rttDestroy k1 k2 k3 k4 k5 | map k1 k2 k3 k4 k5
    | dataDestroy k1 k2 k3 k5 | init k1 k2 k3 k4 k5 | set k1 k2 k3 k4 k6 k7 k8 k5
    | destroy k5 | rttDestroyNs k1 k2 k3 k5 =>
      rw [hv] at k5; cases k5

/-! ## C14: where requests come from -/

/-- C14: the request that RTT_SET_RIPAS carries out was made by that REC, running, through
RSI_IPA_STATE_SET with exactly the recorded range, value and options, and has been pending
ever since. -/
theorem C14_request_origin (hP : PlatOk P) (hr : Reach P s) {q : Nat} (hq : s.st q = .recd)
    (ht : (recOf s q).sr.top ≠ 0) :
    ∃ t t' ret, Reach P t ∧ t.st q = .recd ∧ t.rc q = 1 ∧ (recOf t q).rd = (recOf s q).rd ∧
      step P t (.rsiIpaStateSet q (recOf s q).sr.base (recOf s q).sr.top (recOf s q).sr.ripas (recOf s q).sr.chg)
        = some (t', ret) ∧
      Run P (fun u _ => u.st q = .recd ∧ (recOf u q).sr.base = (recOf s q).sr.base ∧
        (recOf u q).sr.top = (recOf s q).sr.top ∧ (recOf u q).sr.ripas = (recOf s q).sr.ripas ∧
        (recOf u q).sr.chg = (recOf s q).sr.chg) t' s := by
  induction hr with
  | init h => rw [h.st] at hq; cases hq
  | step hr e ih =>
    rename_i u u' op ret
    obtain ⟨ti, di, rl, h⟩ := hr.inv hP
    have key : ∀ (_ : u.st q = .recd) (_ : (recOf u' q).rd = (recOf u q).rd)
        (_ : (recOf u' q).sr.base = (recOf u q).sr.base)
        (_ : (recOf u' q).sr.top = (recOf u q).sr.top) (_ : (recOf u' q).sr.ripas = (recOf u q).sr.ripas)
        (_ : (recOf u' q).sr.chg = (recOf u q).sr.chg),
        ∃ t t' ret, Reach P t ∧ t.st q = .recd ∧ t.rc q = 1 ∧ (recOf t q).rd = (recOf u' q).rd ∧
          step P t (.rsiIpaStateSet q (recOf u' q).sr.base (recOf u' q).sr.top (recOf u' q).sr.ripas
            (recOf u' q).sr.chg) = some (t', ret) ∧
          Run P (fun v _ => v.st q = .recd ∧ (recOf v q).sr.base = (recOf u' q).sr.base ∧
            (recOf v q).sr.top = (recOf u' q).sr.top ∧ (recOf v q).sr.ripas = (recOf u' q).sr.ripas ∧
            (recOf v q).sr.chg = (recOf u' q).sr.chg) t' u' := by
      intro h1 h6 h2 h3 h4 h5
      rw [h3] at ht
      have := ih h1 ht
      rw [← h2, ← h3, ← h4, ← h5, ← h6] at this
      obtain ⟨t, t', ret', k1, k2, k3, k4, k5, k6⟩ := this
      exact ⟨t, t', ret', k1, k2, k3, k4, k5, .tail k6 ⟨h1, h2.symm, h3.symm, h4.symm, h5.symm⟩ e⟩
    rcases step_eff hP h e with ⟨rfl, _⟩ | k
    · exact key hq rfl rfl rfl rfl rfl
    · rcases k.rec_step h hq with ⟨h1, h2, _⟩ | h1
      · exact key h1 (by rw [h2]) (by rw [h2]) (by rw [h2]) (by rw [h2]) (by rw [h2])
      · cases h1 with
        | create _ h2 => rw [h2] at ht; exact absurd rfl ht
        | setRipas h1 _ _ h2 => exact key h1 (by rw [h2]) (by rw [h2]) (by rw [h2]) (by rw [h2]) (by rw [h2])
        | psciCall h1 _ _ _ h2 => exact key h1 (by rw [h2]; rfl) (by rw [h2]; rfl) (by rw [h2]; rfl) (by rw [h2]; rfl) (by rw [h2]; rfl)
        | psciTarget h1 _ _ _ _ h2 => exact key h1 (by rw [h2]; rfl) (by rw [h2]; rfl) (by rw [h2]; rfl) (by rw [h2]; rfl) (by rw [h2]; rfl)
        | enter h1 _ _ _ _ _ h2 =>
          by_cases hb : (recOf u q).sr.base = (recOf u q).sr.top
          · unfold completeSetRipas at h2
            rw [if_pos hb] at h2
            exact key h1 (by rw [h2]) (by rw [h2]) (by rw [h2]) (by rw [h2]) (by rw [h2])
          · unfold completeSetRipas at h2
            rw [if_neg hb] at h2
            rw [h2] at ht; exact absurd rfl ht
        | run h1 _ _ h2 => exact key h1 (by rw [h2]) (by rw [h2]) (by rw [h2]) (by rw [h2]) (by rw [h2])
        | psciReq h1 _ _ _ h2 => exact key h1 (by rw [h2]) (by rw [h2]) (by rw [h2]) (by rw [h2]) (by rw [h2])
        | ipaStateSetErr h1 _ _ h2 => exact key h1 (by rw [h2]) (by rw [h2]) (by rw [h2]) (by rw [h2]) (by rw [h2])
        | systemOff h1 _ _ h2 => exact key h1 (by rw [h2]) (by rw [h2]) (by rw [h2]) (by rw [h2]) (by rw [h2])
        | ipaStateSet h1 h3 _ _ _ _ _ _ h2 =>
          refine ⟨u, u', ret, hr, h1, h3, by rw [h2], ?_, .refl⟩
          rw [h2]; exact e

/-! ## C15 -/

/-- Some REC of realm `r` has an unfinished RSI_IPA_STATE_SET request for a range containing `a`
(by `C14_request_origin` the realm made it itself). -/
def Asked (s : State) (r a : Nat) : Prop :=
  ∃ q, s.st q = .recd ∧ (recOf s q).rd = r ∧ (recOf s q).sr.base ≤ a ∧ a < (recOf s q).sr.top

/-- The page is DESTROYED, with or without memory behind it. -/
def Gone (s : State) (r a : Nat) : Prop :=
  view s r a = some (.unassigned .destroyed) ∨ ∃ y, view s r a = some (.assigned .destroyed y)

/-- A realm does not become NEW again. -/
theorem not_new_again (hP : PlatOk P) (hr : Reach P s) {op : Op} (e : step P s op = some (s', ret)) {r : Nat}
    (hd : s.st r = .rd) (hn : (rdOf s r).state ≠ .new) (hop : op ≠ .realmDestroy r) :
    s'.st r = .rd ∧ (rdOf s' r).state ≠ .new := by
  obtain ⟨ti, di, rl, h⟩ := hr.inv hP
  rcases step_eff hP h e with ⟨rfl, _⟩ | k
  · exact ⟨hd, hn⟩
  have h1 := k.rd_stays h hd hop
  refine ⟨h1, ?_⟩
  rcases k.rd_step h h1 with ⟨_, h2, _⟩ | h2
  · rw [h2]; exact hn
  · cases h2 with
    | create h3 => rw [hd] at h3; cases h3
    | data _ h3 | init _ h3 | recCreate _ h3 | activate _ h3 => exact absurd h3 hn
    | systemOff _ _ _ _ h3 => rw [h3]; simp
    | extend _ _ _ _ _ _ h3 | recDestroy _ _ _ h3 => rw [h3]; exact hn

/-- Carrying out a request needs one that covers the page. -/
theorem asked_of_sr (h : InvG P s ti di rl) {q r a : Nat} (h1 : s.st q = .recd) (h2 : (recOf s q).rd = r)
    (h3 : (recOf s q).sr.addr ≤ a) (h4 : a < (recOf s q).sr.top) : Asked s r a := by
  have := (h.recs q h1).sr.le (by omega)
  exact ⟨q, h1, h2, by omega, h4⟩

/-- C15: one step of a realm that is past NEW, seen from a RAM page with memory behind
it. -/
theorem C15_step (hP : PlatOk P) (hr : Reach P s) {op : Op} (e : step P s op = some (s', ret)) {r a x : Nat}
    (hn : (rdOf s r).state ≠ .new) (hop : op ≠ .realmDestroy r) (ha : ¬ Asked s r a)
    (hv : view s r a = some (.assigned .ram x)) : view s' r a = some (.assigned .ram x) ∨ Gone s' r a := by
  obtain ⟨ti, di, rl, h⟩ := hr.inv hP
  rcases view_step hP hr e r a with h1 | ⟨h0, h1⟩
  · rw [h1]; exact Or.inl hv
  · cases h1 with
    | dataDestroy k1 k2 k3 k4 =>
      rw [hv] at k3; cases k3
      exact Or.inr (Or.inl k4)
    | setAssigned k1 k2 k3 k4 k6 => exact absurd (asked_of_sr h k1 k2 k4 k6) ha
    | set k1 k2 k3 k4 k6 => exact absurd (asked_of_sr h k1 k2 k4 k6) ha
    | data _ _ _ _ k | init _ _ k => exact absurd k hn
    | destroy => exact absurd rfl hop
    | rttDestroy _ _ _ k | unmap _ _ _ k | map _ _ _ k | dataUnknown _ _ _ _ k | create _ k => rw [hv] at k; cases k
    | rttDestroyNs _ _ k _ =>
      have h3 := view_assigned h hv
      rw [par_eq h h3.1] at h3
      omega

/-- C15: a DESTROYED page stays so unless the realm asks. -/
theorem C15_gone_step (hP : PlatOk P) (hr : Reach P s) {op : Op} (e : step P s op = some (s', ret)) {r a : Nat}
    (hn : (rdOf s r).state ≠ .new) (hop : op ≠ .realmDestroy r) (ha : ¬ Asked s r a)
    (hv : Gone s r a) : Gone s' r a := by
  obtain ⟨ti, di, rl, h⟩ := hr.inv hP
  have hpar : a < parOf s r := by
    by_contra hc
    rcases hv with hv | ⟨y, hv⟩ <;>
      rcases C04_unprotected_half hP hr (Nat.not_lt.mp hc) hv with h1 | ⟨_, _, h1⟩ <;> cases h1
  rcases view_step hP hr e r a with h1 | ⟨h0, h1⟩
  · unfold Gone; rw [h1]; exact hv
  · cases h1 with
    | dataDestroy k1 k2 k3 k4 =>
      rcases hv with hv | ⟨y, hv⟩
      · rw [hv] at k3; cases k3
      · rw [hv] at k3; cases k3
        exact Or.inl k4
    | dataUnknown _ _ _ _ k3 k4 =>
      rcases hv with hv | ⟨y, hv⟩
      · rw [hv] at k3; cases k3
        exact Or.inr ⟨_, k4⟩
      · rw [hv] at k3; cases k3
    | rttDestroy _ _ _ _ k => exact Or.inl k
    | setAssigned k1 k2 k3 k4 k6 => exact absurd (asked_of_sr h k1 k2 k4 k6) ha
    | set k1 k2 k3 k4 k6 => exact absurd (asked_of_sr h k1 k2 k4 k6) ha
    | data _ _ _ _ k | init _ _ k => exact absurd k hn
    | destroy => exact absurd rfl hop
    | rttDestroyNs _ _ k _ | unmap _ _ k | map _ _ k => omega
    | create k => obtain hv | ⟨y, hv⟩ := hv <;> (have := (view_some h hv).1; rw [k] at this; cases this)

/-- The operation is a write of realm `r` to the page at `a`. -/
def WritesPage (s : State) (r a : Nat) (op : Op) : Prop :=
  ∃ q b p, op = .realmWrite q b p ∧ (recOf s q).rd = r ∧ b / 4096 = a / 4096

/-- C15: during any history of a realm past NEW in which it does not ask for a change of
the page, a RAM page with memory keeps its granule or becomes DESTROYED for good. -/
theorem C15_history (hP : PlatOk P) (hr : Reach P s) {r a x : Nat} (hd : s.st r = .rd)
    (hn : (rdOf s r).state ≠ .new) (hv : view s r a = some (.assigned .ram x))
    (run : Run P (fun u op => ¬ Asked u r a ∧ op ≠ .realmDestroy r) s s') :
    view s' r a = some (.assigned .ram x) ∨ Gone s' r a := by
  suffices hh : s'.st r = .rd ∧ (rdOf s' r).state ≠ .new ∧
      (view s' r a = some (.assigned .ram x) ∨ Gone s' r a) from hh.2.2
  induction run with
  | refl => exact ⟨hd, hn, Or.inl hv⟩
  | tail run ok e ih =>
    have hru := run.reach hr
    obtain ⟨h1, h2, h3⟩ := ih
    obtain ⟨h4, h5⟩ := not_new_again hP hru e h1 h2 ok.2
    refine ⟨h4, h5, ?_⟩
    rcases h3 with h3 | h3
    · exact C15_step hP hru e h2 ok.2 ok.1 h3
    · exact Or.inr (C15_gone_step hP hru e h2 ok.2 ok.1 h3)

/-- C15: if the page is RAM at the end of such a history, in which the realm did not write
to it either, it holds what it held at the beginning. -/
theorem C15_contents (hP : PlatOk P) (hr : Reach P s) {r a x y : Nat} (hd : s.st r = .rd)
    (hn : (rdOf s r).state ≠ .new) (hv : view s r a = some (.assigned .ram x))
    (run : Run P (fun u op => ¬ Asked u r a ∧ op ≠ .realmDestroy r ∧ ¬ WritesPage u r a op) s s')
    (hv' : view s' r a = some (.assigned .ram y)) : y = x ∧ s'.mem x = s.mem x := by
  suffices hh : s'.st r = .rd ∧ (rdOf s' r).state ≠ .new ∧
      ((view s' r a = some (.assigned .ram x) ∧ s'.mem x = s.mem x) ∨ Gone s' r a) by
    obtain ⟨_, _, h | h | ⟨z, h⟩⟩ := hh
    · rw [hv'] at h; obtain ⟨h1, h2⟩ := h; cases h1; exact ⟨rfl, h2⟩
    · rw [hv'] at h; cases h
    · rw [hv'] at h; cases h
  clear hv'
  induction run with
  | refl => exact ⟨hd, hn, Or.inl ⟨hv, rfl⟩⟩
  | tail run ok e ih =>
    rename_i u u' op ret
    have hru := run.reach hr
    obtain ⟨h1, h2, h3⟩ := ih
    obtain ⟨h4, h5⟩ := not_new_again hP hru e h1 h2 ok.2.1
    refine ⟨h4, h5, ?_⟩
    rcases h3 with ⟨h3, h6⟩ | h3
    · rcases C15_step hP hru e h2 ok.2.1 ok.1 h3 with h7 | h7
      · left
        refine ⟨h7, ?_⟩
        rcases C10_no_host_data_once_active hP hru e h2 h1 h7 with ⟨rp0, _, h9 | ⟨q, b, p, h9, h10, h11, h12⟩⟩ | ⟨b, h9, _⟩
        · rw [h9, h6]
        · have := C03_unique hP hru h3 h12
          exact absurd ⟨q, b, p, h9, h10, this.2.symm⟩ ok.2.2
        · subst h9
          obtain ⟨ti, di, rl, hi⟩ := hru.inv hP
          rcases step_eff hP hi e with ⟨rfl, _⟩ | ⟨g, rp, k, _⟩
          · exact h6
          · have hx := (view_assigned hi h3).2.2.1
            rw [k.del] at hx; cases hx
      · exact Or.inr h7
    · exact Or.inr (C15_gone_step hP hru e h2 ok.2.1 ok.1 h3)

/-- C15: a DESTROYED page cannot be accessed. -/
theorem C15_gone_faults (hP : PlatOk P) (hr : Reach P s) {r a : Nat} (hd : s.st r = .rd) (h : Gone s r a) :
    translate s (rdOf s r) a = none := by
  obtain ⟨ti, di, rl, hi⟩ := hr.inv hP
  cases ht : translate s (rdOf s r) a with
  | none => rfl
  | some p =>
    exfalso
    obtain ⟨pa, ns⟩ := p
    obtain ⟨_, h2⟩ := translate_spec hi hd ht
    rcases h2 with ⟨rfl, h3, h4, _, h6⟩ | ⟨rfl, h3, at_, h4⟩
    · rcases h with h | ⟨y, h⟩ <;> rw [h] at h6 <;> cases h6
    · rcases h with h | ⟨y, h⟩ <;> rw [h] at h4 <;> cases h4

/-! ### A concrete history for the C15 theorems -/

/-- The operation is not a request to change RIPAS. -/
def notAsk : Op → Bool
  | .rsiIpaStateSet .. => false
  | _ => true

theorem run_hist {ok : Op → Bool} : ∀ (l : List Op) {s s' : State}, run P s l = some s' → l.all ok = true →
    Run P (fun _ op => ok op = true) s s' := by
  have aux : ∀ (l : List Op) {s0 s s' : State}, Run P (fun _ op => ok op = true) s0 s → run P s l = some s' →
      l.all ok = true → Run P (fun _ op => ok op = true) s0 s' := by
    intro l
    induction l with
    | nil => intro s0 s s' h e _; cases e; exact h
    | cons op l ih =>
      intro s0 s s' h e ha
      simp only [List.all_cons, Bool.and_eq_true] at ha
      unfold run at e
      cases hs : step P s op with
      | none => rw [hs] at e; cases e
      | some x => rw [hs] at e; exact ih (.tail h ha.1 hs) e ha.2
  intro l s s' e ha
  exact aux l .refl e ha

/-- Nothing is asked as long as no realm called RSI_IPA_STATE_SET. -/
theorem not_asked (hP : PlatOk P) (h0 : Init P s) (run : Run P (fun _ op => notAsk op = true) s s') (r a : Nat) :
    ¬ Asked s' r a := by
  suffices hh : ∀ q, s'.st q = .recd → (recOf s' q).sr.top = 0 by
    rintro ⟨q, h1, _, _, h2⟩
    rw [hh q h1] at h2
    omega
  induction run with
  | refl => intro q hq; rw [h0.st] at hq; cases hq
  | tail run ok e ih =>
    intro q hq
    obtain ⟨ti, di, rl, h⟩ := (run.reach (.init h0)).inv hP
    rcases step_eff hP h e with ⟨rfl, _⟩ | k
    · exact ih q hq
    rcases k.rec_step h hq with ⟨h1, h2, _⟩ | h1
    · rw [h2]; exact ih q h1
    · cases h1 with
      | create _ h2 => rw [h2]; rfl
      | setRipas h1 _ _ h2 | run h1 _ _ h2 | psciReq h1 _ _ _ h2 | systemOff h1 _ _ h2 => rw [h2]; exact ih q h1
      | psciCall h1 _ _ _ h2 | psciTarget h1 _ _ _ _ h2 => rw [h2]; exact ih q h1
      | enter h1 _ _ _ _ _ h2 =>
        rw [h2]
        unfold completeSetRipas
        split
        · exact ih q h1
        · rfl
      | ipaStateSet | ipaStateSetErr => cases ok

/-- The host takes away a page of an active realm and puts another granule there: the
page stays DESTROYED. -/
example : ∃ s s', Reach plat s ∧ s.st (G 16) = .rd ∧ (rdOf s (G 16)).state ≠ .new ∧
    view s (G 16) 0 = some (.assigned .ram (G 22)) ∧
    Run plat (fun u op => ¬ Asked u (G 16) 0 ∧ op ≠ .realmDestroy (G 16)) s s' ∧
    view s' (G 16) 0 = some (.assigned .destroyed (G 90)) := by
  obtain ⟨l, hl⟩ : ∃ l, l = all ++ [.realmActivate (G 16)] := ⟨_, rfl⟩
  have key : (run plat boot l).any (fun s => s.st (G 16) == .rd && (rdOf s (G 16)).state == .active &&
      view s (G 16) 0 == some (.assigned .ram (G 22)) &&
      (step plat s (.dataDestroy (G 16) 0)).any (fun x =>
        (step plat x.1 (.granuleDelegate (G 90))).any (fun y =>
          (step plat y.1 (.dataCreateUnknown (G 16) (G 90) 0)).any (fun z =>
            view z.1 (G 16) 0 == some (.assigned .destroyed (G 90)))))) = true := by
    subst hl; decide +kernel
  have hall : l.all notAsk = true := by subst hl; decide +kernel
  clear hl
  cases hr : run plat boot l with
  | none => rw [hr] at key; cases key
  | some s =>
    rw [hr, Option.any_some] at key
    simp only [Bool.and_eq_true, beq_iff_eq] at key
    obtain ⟨⟨⟨h1, h2⟩, h3⟩, h4⟩ := key
    have r0 := run_hist l hr hall
    cases e1 : step plat s (.dataDestroy (G 16) 0) with
    | none => rw [e1] at h4; cases h4
    | some x =>
      rw [e1, Option.any_some] at h4
      cases e2 : step plat x.1 (.granuleDelegate (G 90)) with
      | none => rw [e2] at h4; cases h4
      | some y =>
        rw [e2, Option.any_some] at h4
        cases e3 : step plat y.1 (.dataCreateUnknown (G 16) (G 90) 0) with
        | none => rw [e3] at h4; cases h4
        | some z =>
          rw [e3, Option.any_some, beq_iff_eq] at h4
          have r1 := Run.tail (ret := x.2) (t' := x.1) r0 rfl e1
          have r2 := Run.tail (ret := y.2) (t' := y.1) r1 rfl e2
          exact ⟨s, z.1, run_reach l (.init boot_init) hr, h1, by rw [h2]; simp, h3,
            .tail (.tail (.tail .refl ⟨not_asked plat_ok boot_init r0 _ _, by simp⟩ e1)
              ⟨not_asked plat_ok boot_init r1 _ _, by simp⟩ e2) ⟨not_asked plat_ok boot_init r2 _ _, by simp⟩ e3, h4⟩

/-- A page added to an active realm holds zeros. -/
example : ∃ s s' ret, Reach plat s ∧ step plat s (.dataCreateUnknown (G 16) (G 90) 8192) = some (s', ret) ∧
    ((rdOf s (G 16)).state == .active && view s' (G 16) 8192 == some (.assigned .ram (G 90)) &&
      s'.mem (G 90) matches .page 0) = true :=
  ex_step (all ++ delegates 90 1 ++ [.realmActivate (G 16)]) _ _ (by decide +kernel)

/-- A pending request. -/
example : ∃ s, Reach plat s ∧ (s.st (G 32) == .recd && (recOf s (G 32)).sr.top == 8192) = true :=
  ex (all ++ [.realmActivate (G 16), .recEnter (G 32) (G 2) true false,
    .rsiIpaStateSet (G 32) 0 8192 .empty false]) _ (by decide +kernel)

end
end Verif.Rmm
