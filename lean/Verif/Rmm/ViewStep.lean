import Verif.Rmm.PropNs
import Verif.Rmm.Hist

/-!
# Every way a page of a realm's address space can change in one step
-/

namespace Verif.Rmm

section
variable {P : Plat} {s s' : State} {ret : Ret} {ti : Nat → TabInfo} {di : Nat → Nat × Nat} {rl : Nat → List Nat}
open Demo

/-- The operation does not touch stage 2 tables. -/
def Op.soft : Op → Bool
  | .rttCreate .. | .rttFold .. | .rttDestroy .. | .rttMapUnprotected .. | .rttUnmapUnprotected ..
  | .dataCreateUnknown .. | .dataCreate .. | .dataDestroy .. | .rttInitRipas .. | .rttSetRipas ..
  | .realmCreate .. | .realmDestroy .. => false
  | _ => true

theorem Eff.rtt_kept (h : InvG P s ti di rl) {op : Op} (e : Eff P s ti di s' ret op) (hop : op.soft = true) {x : Nat}
    (hx : s.st x = .rtt) : s'.st x = .rtt ∧ s'.mem x = s.mem x := by
  refine ⟨?_, ?_⟩
  · rcases e.st_step h x with h1 | h1
    · rw [h1, hx]
    · exfalso
      cases h1 with
      | recDestroy hd => rw [hx] at hd; rcases hd with hd | hd <;> cases hd
      | realmDestroy | rttFold | rttDestroy => cases hop
      | delegate hd | undelegate hd | rttCreate hd | dataUnknown hd | data hd
      | dataDestroy hd | rd hd | root hd | recd hd | aux hd => rw [hx] at hd; cases hd
  cases op with
  | granuleDelegate a =>
    obtain ⟨_, h2, _, _, rfl⟩ := e
    exact upd_ne _ _ _ (ne_of_st hx h2 (by simp))
  | granuleUndelegate a =>
    obtain ⟨_, h2, _, rfl⟩ := e; rfl
  | rttReadEntry rd a lvl => rw [e.1]
  | realmActivate rd =>
    have k : ActivateOk P s rd s' ret := e; rw [k.st]
    exact (upd_ne _ _ _ (ne_of_st hx k.rd.2 (by simp)))
  | recCreate rd rc pA q =>
    have k : RecCreateOk P s rd rc q s' ret := e
    rw [k.st]; simp only [recCreateSt, markAux]
    rw [upd_ne _ _ _ (ne_of_st hx k.rd (by simp)), upd_ne _ _ _ (ne_of_st hx k.recd.2 (by simp))]
  | recDestroy rc =>
    have k : RecDestroyOk s rc s' ret := e
    rw [k.st]; simp only [recDestroySt]
    rw [upd_ne _ _ _ (ne_of_st hx k.recd (by simp)), if_neg]
    intro hin
    have := (h.recs rc k.recd).auxSt x hin
    rw [hx] at this; cases this
  | recAuxCount rd => rw [e.1]
  | psciComplete c t st =>
    have k : PsciOk P s c t st s' ret := e
    rw [k.st]; dsimp only
    rw [upd_ne _ _ _ (ne_of_st hx k.call.2 (by simp))]
    split
    · rw [upd_ne _ _ _ (ne_of_st hx k.tgt.2 (by simp))]
    · rfl
  | recEnter rc run acc rej =>
    obtain ⟨rfl, k⟩ := e; rw [k.st]; exact (upd_ne _ _ _ (ne_of_st hx k.recd.2 (by simp)))
  | recRun rc stop off regs pc =>
    obtain ⟨h0, h1, _, rfl⟩ := e; exact (upd_ne _ _ _ (ne_of_st hx h0 (by simp)))
  | psciRequest rc =>
    obtain ⟨h0, h1, _, h2, rfl⟩ := e; exact (upd_ne _ _ _ (ne_of_st hx h0 (by simp)))
  | rsiIpaStateSet rc base top v chg =>
    obtain ⟨h0, h1, _, h5⟩ := e
    rcases h5 with rfl | ⟨_, _, _, _, _, rfl⟩ <;> exact (upd_ne _ _ _ (ne_of_st hx h0 (by simp)))
  | psciSystemOff rc =>
    obtain ⟨h0, h1, _, rfl⟩ := e
    exact (upd_ne _ _ _ (ne_of_st hx (h.recs rc h0).rd (by simp)))
  | rsiExtend rc i v =>
    obtain ⟨h0, h1, _, hi, hj, rfl⟩ := e
    exact (upd_ne _ _ _ (ne_of_st hx (h.recs rc h0).rd (by simp)))
  | realmWrite rc a p =>
    obtain ⟨h0, h1, _, y, rfl, h5⟩ := e
    refine upd_ne _ _ _ ?_
    rcases h5 with ⟨h6, _⟩ | ⟨h6, _⟩ <;> exact ne_of_st hx h6 (by simp)
  | auxWrite rc a p =>
    obtain ⟨_, _, _, _, h7, rfl⟩ := e; exact (upd_ne _ _ _ (ne_of_st hx h7 (by simp)))
  | hostWrite a p =>
    obtain ⟨h0, _, _, rfl⟩ := e; exact (upd_ne _ _ _ (ne_of_st hx h0 (by simp)))
  | el3Move a toNs => obtain ⟨_, _, rfl⟩ := e; rfl
  | _ => cases hop

/-- The geometry of a realm never changes while it lives. -/
theorem Eff.geo (h : InvG P s ti di rl) {op : Op} (e : Eff P s ti di s' ret op) {r : Nat}
    (h0 : s.st r = .rd) (h1 : s'.st r = .rd) : SameGeo (rdOf s r) (rdOf s' r) := by
  rcases e.rd_step h h1 with ⟨_, h2, _⟩ | h2
  · rw [h2]; exact SameGeo.refl _
  · cases h2 with
    | create hd => rw [h0] at hd; cases hd
    | data _ _ _ h3 | init _ _ _ h3 | activate _ _ h3 | recCreate _ _ h3 | recDestroy _ _ _ h3
    | systemOff _ _ _ _ h3 | extend _ _ _ _ _ _ h3 => rw [h3]; exact ⟨rfl, rfl, rfl, rfl, rfl, rfl, rfl⟩

/-- A realm descriptor stays one until the realm is destroyed. -/
theorem Eff.rd_stays (h : InvG P s ti di rl) {op : Op} (e : Eff P s ti di s' ret op) {r : Nat}
    (h0 : s.st r = .rd) (hop : op ≠ .realmDestroy r) : s'.st r = .rd := by
  rcases e.st_step h r with h1 | h1
  · rw [h1, h0]
  · cases h1 with
    | realmDestroy hd =>
      rename_i rd _ _
      by_cases hr : rd = r
      · exact absurd (by rw [hr]) hop
      · have k := e.kept h (.rd rfl h0) (by simpa [Op.target] using hr)
        rw [k.1, h0]
    | recDestroy hd => rw [h0] at hd; rcases hd with hd | hd <;> cases hd
    | delegate hd | undelegate hd | rttCreate hd | rttFold hd | rttDestroy hd | dataUnknown hd | data hd
    | dataDestroy hd | rd hd | root hd | recd hd | aux hd => rw [h0] at hd; cases hd

/-- An operation on tables is not needed for realms to appear or disappear only with
REALM_CREATE and REALM_DESTROY. -/
theorem Eff.rd_iff_soft (h : InvG P s ti di rl) {op : Op} (e : Eff P s ti di s' ret op) (hop : op.soft = true) (r : Nat) :
    s'.st r = .rd ↔ s.st r = .rd := by
  constructor
  · intro h1
    rcases e.rd_step h h1 with ⟨h2, _⟩ | h2
    · exact h2
    · cases h2 <;> first | assumption | cases hop
  · intro h1
    exact e.rd_stays h h1 (by rintro rfl; cases hop)

theorem Eff.view_soft (hP : PlatOk P) (h : InvG P s ti di rl) {op : Op} (e : Eff P s ti di s' ret op)
    (es : step P s op = some (s', ret)) (hop : op.soft = true) (r a : Nat) : view s' r a = view s r a := by
  unfold view
  rw [e.leaf_same hP h es (e.rd_iff_soft h hop r)
    (fun h0 => e.geo h h0 ((e.rd_iff_soft h hop r).mpr h0)) (fun g hg => e.rtt_kept h hop hg) a]

theorem div_page {a b n : Nat} (h0 : b % 4096 = 0) (h1 : b ≤ a) (h2 : a < b + 4096) :
    a / (4096 * n) = b / (4096 * n) := by
  rw [← Nat.div_div_eq_div_mul, ← Nat.div_div_eq_div_mul]
  congr 1
  omega

/-- All addresses of a page have the same view. -/
theorem view_page (h : InvG P s ti di rl) {r a b : Nat} (h0 : b % 4096 = 0) (h1 : b ≤ a) (h2 : a < b + 4096) :
    view s r a = view s r b := by
  by_cases hrd : s.st r = .rd
  swap
  · unfold view; rw [leaf_not_rd h hrd, leaf_not_rd h hrd]
  have hG := (h.rds r hrd).geo
  by_cases hb : b < (rdOf s r).ipaSize
  swap
  · unfold view; rw [leaf_none h hrd (a := a) (by omega), leaf_none h hrd (a := b) (by omega)]
  have ha : a < (rdOf s r).ipaSize :=
    region_below (d := 0) ((sz_dvd (Nat.zero_le _)).trans hG.ipa_dvd) (by rw [sz_zero]; exact h0) hb
      (by rw [sz_zero]; exact h2)
  obtain ⟨d, g, k, hn, hl⟩ := leaf_ex h hrd hb
  have hd : ∀ e, a / sz e = b / sz e := fun e => by unfold sz; exact div_page h0 h1 h2
  have hi : ∀ e, idx e a = idx e b := fun e => by unfold idx; rw [hd e]
  have hal : al d a = al d b := by unfold al; rw [hd]
  have hl' := leaf_at h (rdA := r) (a := a) (d := d) (g := g) ⟨hrd, ha, k.st, by rw [k.ti, hal]⟩ (by rw [hi]; exact hn)
  rw [view_of_leaf hl, view_of_leaf hl', hi]
  have hm : a % sz d / 4096 = b % sz d / 4096 := by
    unfold sz
    rw [Nat.mod_mul_right_div_self, Nat.mod_mul_right_div_self]
    congr 1
    omega
  cases tabOf s g (idx d b) <;> simp only [pageView, hm]

/-- The possible changes of the page containing `a` in realm `r`. -/
inductive ViewChange (s s' : State) (ret : Ret) (r a : Nat) : Op → Prop
  /-- the host maps one of its pages in the unprotected half -/
  | map {b lvl desc at_ x} : b ≤ a → a < b + entrySize lvl → parOf s r ≤ a →
      view s r a = some .unassignedNs → view s' r a = some (.assignedNs at_ x) →
      at_ = desc &&& S2tte.NS_ATTR_MASK →
      x = (S2tte.toPa desc lvl (rdOf s r).lpa2).toNat + (a - b) / 4096 * 4096 →
      ViewChange s s' ret r a (.rttMapUnprotected r b lvl desc)
  /-- the host unmaps one of its pages -/
  | unmap {b lvl at_ x} : b ≤ a → a < b + entrySize lvl → parOf s r ≤ a →
      view s r a = some (.assignedNs at_ x) → view s' r a = some .unassignedNs →
      ViewChange s s' ret r a (.rttUnmapUnprotected r b lvl)
  /-- the host destroys the table of a protected page without memory -/
  | rttDestroy {b lvl rp} : b ≤ a → a < b + tableSize lvl → a < parOf s r →
      view s r a = some (.unassigned rp) → view s' r a = some (.unassigned .destroyed) →
      ViewChange s s' ret r a (.rttDestroy r b lvl)
  /-- the host destroys the table of an unprotected page -/
  | rttDestroyNs {b lvl} : b ≤ a → a < b + tableSize lvl → parOf s r ≤ a →
      view s' r a = some .unassignedNs → ViewChange s s' ret r a (.rttDestroy r b lvl)
  /-- zeroed memory is put behind the page -/
  | dataUnknown {b x rp} : b ≤ a → a < b + 4096 → s.st x = .delegated → s'.mem x = .page 0 →
      view s r a = some (.unassigned rp) → view s' r a = some (.assigned rp x) →
      ViewChange s s' ret r a (.dataCreateUnknown r x b)
  /-- measured memory is put behind the page of a NEW realm -/
  | data {b x src fl rp} : b ≤ a → a < b + 4096 → s.st x = .delegated → s'.mem x = s.mem src →
      (rdOf s r).state = .new →
      view s r a = some (.unassigned rp) → view s' r a = some (.assigned .ram x) →
      ViewChange s s' ret r a (.dataCreate r x b src fl)
  /-- the memory behind the page is taken away -/
  | dataDestroy {b x rp} : b ≤ a → a < b + 4096 → view s r a = some (.assigned rp x) →
      view s' r a = some (.unassigned (if rp = .ram then .destroyed else rp)) →
      ViewChange s s' ret r a (.dataDestroy r b)
  /-- the initial RIPAS of a NEW realm -/
  | init {b t} : b ≤ a → a < t → (rdOf s r).state = .new → view s r a = some (.unassigned .empty) →
      view s' r a = some (.unassigned .ram) → ViewChange s s' ret r a (.rttInitRipas r b t)
  /-- a pending request of the realm is carried out for a page without memory -/
  | set {q b t old} : s.st q = .recd → (recOf s q).rd = r → s.rc q = 0 → (recOf s q).sr.addr ≤ a →
      a < (recOf s q).sr.top → (old ≠ .destroyed ∨ (recOf s q).sr.chg = true) →
      view s r a = some (.unassigned old) → view s' r a = some (.unassigned (recOf s q).sr.ripas) →
      ViewChange s s' ret r a (.rttSetRipas r q b t)
  /-- the same for a page with memory -/
  | setAssigned {q b t old x} : s.st q = .recd → (recOf s q).rd = r → s.rc q = 0 → (recOf s q).sr.addr ≤ a →
      a < (recOf s q).sr.top → (old ≠ .destroyed ∨ (recOf s q).sr.chg = true) →
      view s r a = some (.assigned old x) → view s' r a = some (.assigned (recOf s q).sr.ripas x) →
      ViewChange s s' ret r a (.rttSetRipas r q b t)
  | create {p q} : s.st r = .delegated → view s r a = none →
      view s' r a = some (.unassigned .empty) ∨ view s' r a = some .unassignedNs →
      ViewChange s s' ret r a (.realmCreate r p q)
  | destroy : view s' r a = none → ViewChange s s' ret r a (.realmDestroy r)

/-- Every change of a page of a realm's address space is one of `ViewChange`. -/
theorem view_step (hP : PlatOk P) (hr : Reach P s) {op : Op} (es : step P s op = some (s', ret)) (r a : Nat) :
    view s' r a = view s r a ∨ (ret.status = 0 ∧ ViewChange s s' ret r a op) := by
  obtain ⟨ti, di, rl, h⟩ := hr.inv hP
  rcases step_eff hP h es with ⟨rfl, _⟩ | e
  · exact Or.inl rfl
  by_cases hop : op.soft = true
  · exact Or.inl (e.view_soft hP h es hop r a)
  by_cases heq : view s' r a = view s r a
  · exact Or.inl heq
  right
  have hst : ret.status = 0 := by
    rcases e.status with h1 | ⟨c, t, st, rfl⟩
    · exact h1
    · exact absurd rfl hop
  refine ⟨hst, ?_⟩
  have rng : ∀ {c : Prop} [Decidable c] {u v w : Option VE}, view s' r a = (if c then u else v) → v = view s r a →
      c ∧ view s' r a = u := by
    intro c _ u v _ h1 h2
    by_cases hc : c
    · rw [if_pos hc] at h1; exact ⟨hc, h1⟩
    · rw [if_neg hc, h2] at h1; exact absurd h1 heq
  cases op with
  | rttCreate rd rtt b lvl => exact absurd (C08_create hP hr es r a) heq
  | rttFold rd b lvl => exact absurd (C08_fold hP hr es r a) heq
  | rttDestroy rd b lvl =>
    obtain ⟨⟨rfl, h1, h2⟩, h3⟩ := rng (w := none) (C09_effect hP hr es hst r a) rfl
    by_cases hp : a < parOf s r
    · rw [if_pos hp] at h3
      have hrd : s.st r = .rd := by obtain ⟨d, g, c, _, k⟩ := e; exact k.ch.at_.rd
      obtain ⟨v, hv⟩ : ∃ v, view s r a = some v := by
        refine Option.isSome_iff_exists.mp ((C04_total hP hr hrd).mpr ?_)
        refine lt_of_lt_of_le hp (Nat.pow_le_pow_right (by omega) (by omega))
      rcases C04_protected_half hP hr hp hv with ⟨rp, rfl⟩ | ⟨rp, y, rfl⟩
      · exact .rttDestroy h1 h2 hp hv h3
      · exact absurd hv (C09_not_assigned hP hr es hst h1 h2)
    · rw [if_neg hp] at h3
      exact .rttDestroyNs h1 h2 (by omega) h3
  | rttMapUnprotected rd b lvl desc =>
    have hm := C12_map hP hr es hst
    obtain ⟨⟨rfl, h1, h2⟩, h3⟩ := rng (w := none) (hm.2.2.2.2.2.2.2.1 r a) rfl
    exact .map h1 h2 (by have := hm.2.2.2.1; omega) (hm.2.2.2.2.2.2.1 a h1 h2) h3 rfl rfl
  | rttUnmapUnprotected rd b lvl =>
    have hm := C12_unmap hP hr es hst
    obtain ⟨⟨rfl, h1, h2⟩, h3⟩ := rng (w := none) (hm.2.2.2.2.2.2.1 r a) rfl
    obtain ⟨at_, pa, h4⟩ := hm.2.2.2.2.2.1
    exact .unmap h1 h2 (by have := hm.2.2.2.1; omega) (h4 a h1 h2) h3
  | dataCreateUnknown rd data b =>
    obtain ⟨h5, h6, h7, h8, h9, rp, h10, hv⟩ := C10_data_create_unknown hP hr es hst
    obtain ⟨⟨rfl, h1, h2⟩, h3⟩ := rng (w := none) (hv r a) rfl
    exact .dataUnknown h1 h2 h7 h9 (by rw [view_page h h5 h1 h2]; exact h10) h3
  | dataCreate rd data b src fl =>
    obtain ⟨h5, h6, h7, h8, h9, h10, p, h11, h12, _, rp, h13, hv⟩ := C10_data_create hP hr es hst
    obtain ⟨⟨rfl, h1, h2⟩, h3⟩ := rng (w := none) (hv r a) rfl
    exact .data h1 h2 h7 (by rw [h11, h12]) h9 (by rw [view_page h h5 h1 h2]; exact h13) h3
  | dataDestroy rd b =>
    obtain ⟨h5, h6, h7, h8, rp, h9, hv⟩ := C11_data_destroy hP hr es hst
    obtain ⟨⟨rfl, h1, h2⟩, h3⟩ := rng (w := none) (hv r a) rfl
    exact .dataDestroy h1 h2 (by rw [view_page h h5 h1 h2]; exact h9) h3
  | rttInitRipas rd b t =>
    obtain ⟨h5, h6, h7, h8, h9, hv, _⟩ := C13_init_ripas hP hr es hst
    obtain ⟨⟨rfl, h1, h2⟩, h3⟩ := rng (w := none) (hv r a) rfl
    rcases h9 a h1 h2 with h10 | h10
    · exact .init h1 (by omega) h5 h10 h3
    · rw [h3, h10] at heq; exact absurd rfl heq
  | rttSetRipas rd q b t =>
    obtain ⟨h5, h6, h7, h8, h9, h10, h11, h12, hin, hout⟩ := C14_set_ripas hP hr es hst
    by_cases hc : r = rd ∧ b ≤ a ∧ a < ret.x1
    · obtain ⟨rfl, h1, h2⟩ := hc
      obtain ⟨old, h13, h14 | ⟨y, h14⟩⟩ := hin a h1 h2
      · exact .set h5 h6 h7 (by omega) (by omega) h13 h14.1 h14.2
      · exact .setAssigned h5 h6 h7 (by omega) (by omega) h13 h14.1 h14.2
    · exact absurd (hout r a hc) heq
  | realmCreate rd p q =>
    have k : RealmCreateOk P s rd q s' ret := e
    by_cases hrr : r = rd
    · subst hrr
      have hno : view s r a = none := by
        unfold view; rw [leaf_not_rd h (by rw [k.rd.2]; simp)]
      refine .create k.rd.2 hno ?_
      rw [k.view_new h a] at heq ⊢
      split
      · exact Or.inl rfl
      · split
        · exact Or.inr rfl
        · simp_all
    · refine absurd ?_ heq
      unfold view; rw [k.leaf_other h r a hrr]
  | realmDestroy rd =>
    have k : RealmDestroyOk s rd s' ret := e
    have hl := k.leaf_eq h r a
    by_cases hrr : r = rd
    · subst hrr
      rw [if_pos rfl] at hl
      exact .destroy (by unfold view; rw [hl])
    · rw [if_neg hrr] at hl
      exact absurd (by unfold view; rw [hl]) heq
  | _ => exact absurd rfl hop

end
end Verif.Rmm
