import Verif.Rmm.PropView
import Verif.Rmm.Life
import Verif.S2tte.Props

/-!
# Unprotected mappings (C12), and every way a page can change (C04, C15)
-/

namespace Verif.Rmm

section
variable {P : Plat} {s s' : State} {ret : Ret} {ti : Nat → TabInfo} {di : Nat → Nat × Nat} {rl : Nat → List Nat}
open Demo S2tte S2tte.Spec

/-- Operations that do not touch the tables keep all leaves. -/
theorem Eff.leaf_same (hP : PlatOk P) (h : InvG P s ti di rl) {op : Op} (e : Eff P s ti di s' ret op)
    (es : step P s op = some (s', ret)) {r : Nat} (h1 : s'.st r = .rd ↔ s.st r = .rd)
    (h2 : s.st r = .rd → SameGeo (rdOf s r) (rdOf s' r))
    (h3 : ∀ g, s.st g = .rtt → s'.st g = .rtt ∧ s'.mem g = s.mem g) (a : Nat) : leaf s' r a = leaf s r a := by
  obtain ⟨ti', di', rl', h', hti, _⟩ := e.inv hP h es
  exact leaf_frame h h' h1 h2 (fun g hg _ => ⟨(h3 g hg).1, hti g hg, (h3 g hg).2⟩) a

theorem mod_of_region {d a x : Nat} (hal : a % sz d = 0) (h1 : a ≤ x) (h2 : x < a + sz d) : x % sz d = x - a := by
  obtain ⟨k, hk⟩ : ∃ k, a = sz d * k := ⟨a / sz d, by
    have := Nat.div_add_mod a (sz d); omega⟩
  have : x = (x - a) + sz d * k := by omega
  rw [this, Nat.add_mul_mod_self_left, Nat.mod_eq_of_lt (by omega)]
  omega

/-- All addresses of the region of an entry reach that entry. -/
theorem At.region (h : InvG P s ti di rl) {rdA a d g x : Nat} (k : At s ti rdA a d g) (hal : a % sz d = 0)
    (h1 : a ≤ x) (h2 : x < a + sz d) : At s ti rdA x d g ∧ idx d x = idx d a := by
  have hdd : d ≤ (rdOf s rdA).d0 := by
    have := (h.tab g k.st).depth
    rw [k.ti] at this; exact this
  have hG := (h.rds rdA k.rd).geo
  have hlt : x < (rdOf s rdA).ipaSize := region_below ((sz_dvd hdd).trans hG.ipa_dvd) hal k.lt h2
  have h52 := hG.ipa_lt
  have := (at_entry h k (x := x) (by omega) (idx d a) (idx_lt _ _)).mp (by
    rw [al_add _ _ (k.lt52 h), div_mul_of_mod hal]; exact ⟨h1, h2⟩)
  exact ⟨⟨k.rd, hlt, k.st, by rw [k.ti, this.1]⟩, this.2⟩

/-- A host descriptor is its attribute bits and its output address. -/
theorem hostDesc_split (lpa2 : Bool) (level : Int) (h : W) (h3 : level ≤ 3) (hh : HostOk lpa2 level h) :
    (h &&& NS_ATTR_MASK) ||| paToS2tte (toPa h level lpa2) lpa2 = h := by
  apply BitVec.eq_of_getLsbD_eq
  intro i hi
  have hb := hh.1 i
  have hl := lsbOf_eq level
  rw [BitVec.getLsbD_or, BitVec.getLsbD_and, bits_NS_ATTR_MASK]
  cases lpa2 with
  | false =>
    have e : paToS2tte (toPa h level false) false = toPa h level false := rfl
    rw [e, getLsbD_toPa _ _ _ h3, hl]
    unfold hostBit at hb
    unfold hwOaBit
    cases hv : h.getLsbD i <;> simp [hv] at hb ⊢ <;> omega
  | true =>
    rw [getLsbD_paToS2tte, getLsbD_toPa _ _ _ h3, getLsbD_toPa _ _ _ h3, hl]
    unfold hostBit at hb
    unfold hwOaBit
    have e : i + 42 - 42 = i := by omega
    have h12 : 12 ≤ offBits level := by unfold offBits; omega
    cases hv : h.getLsbD i <;> simp [hv] at hb ⊢ <;> grind

/-! ## C12 -/

/-- C12: a successful RTT_MAP_UNPROTECTED was given an unprotected, aligned address of
the realm at a level that can hold blocks or pages, and a well-formed descriptor; the
whole addressed range was UNASSIGNED_NS.  Afterwards the range maps the descriptor's
output range with the descriptor's attribute bits; nothing else changed in any realm. -/
theorem C12_map (hP : PlatOk P) (hr : Reach P s) {rd a : Nat} {lvl : Int} {desc : BitVec 64}
    (e : step P s (.rttMapUnprotected rd a lvl desc) = some (s', ret)) (h0 : ret.status = 0) :
    1 ≤ lvl ∧ lvl ≤ 3 ∧ a % entrySize lvl = 0 ∧ parOf s rd ≤ a ∧ a < ipaOf s rd ∧
    HostOk (rdOf s rd).lpa2 lvl desc ∧
    (∀ x, a ≤ x → x < a + entrySize lvl → view s rd x = some .unassignedNs) ∧
    (∀ r x, view s' r x = if r = rd ∧ a ≤ x ∧ x < a + entrySize lvl
      then some (.assignedNs (desc &&& S2tte.NS_ATTR_MASK)
        ((S2tte.toPa desc lvl (rdOf s rd).lpa2).toNat + (x - a) / 4096 * 4096))
      else view s r x) ∧
    (∀ x, s'.st x = s.st x ∧ s'.rc x = s.rc x ∧ (s.st x ≠ .rtt → s'.mem x = s.mem x)) := by
  obtain ⟨ti, di, rl, h⟩ := hr.inv hP
  obtain ⟨d, g, rfl, k⟩ := step_eff' hP h e rfl h0
  have hd := k.d2
  have hl : ∀ r x, leaf s' r x = _ := fun r x => k.leaf h r x
  rw [entrySize_eq rfl, ← par_eq h k.at_.rd]
  have hge := k.at_.lt
  refine ⟨by omega, by omega, k.al, k.par, hge, ?_, ?_, ?_, ?_⟩
  · exact (S2tte.C12_host_descriptor_valid_iff _ _ _ (by omega) (by omega)).mp k.valid
  · intro x h1 h2
    have hio := k.at_.region h k.al h1 h2
    have h5 := leaf_at h hio.1 (by rw [hio.2, k.ent]; simp)
    rw [hio.2, k.ent] at h5
    rw [view_of_leaf h5]; rfl
  · intro r x
    unfold view
    rw [hl r x]
    by_cases hc : r = rd ∧ a ≤ x ∧ x < a + sz d
    · rw [if_pos hc, if_pos hc]
      simp only [hostEntry, pageView]
      rw [mod_of_region k.al hc.2.1 hc.2.2]
    · rw [if_neg hc, if_neg hc]
  · intro x
    rw [k.st]
    refine ⟨rfl, rfl, fun hx => upd_ne _ _ _ (fun hh => hx (hh ▸ k.at_.st))⟩

/-- A walk that may go down to a table that covers the address gets there. -/
theorem At.reached (h : InvG P s ti di rl) {rdA a d g d' g' : Nat} (k : At s ti rdA a d g)
    (k' : At s ti rdA a d' g') (hge : d ≤ d') (hs : d' ≠ d → ∀ c, tabOf s g' (idx d' a) ≠ .table c) :
    d' = d ∧ g' = g := by
  by_cases hd : d' = d
  · subst hd
    exact ⟨rfl, tab_unique h _ _ _ k'.st k.st (k'.ti.trans k.ti.symm) rfl⟩
  · exfalso
    have h1 := k.ti
    obtain ⟨p, c, hp, htp, hep⟩ := ancestor h (d' - d - 1) g a k.st (k.lt52 h) (by rw [h1])
      (by rw [h1]; have := k'.depth h; dsimp only; omega)
    rw [h1] at htp hep
    dsimp only at htp hep
    rw [show d + (d' - d - 1) + 1 = d' by omega] at htp hep
    have : g' = p := tab_unique h _ _ _ k'.st hp (k'.ti.trans htp.symm) rfl
    subst this
    exact hs hd c hep

/-- READ_ENTRY of an entry that the walk can reach. -/
theorem read_at (h : InvG P s ti di rl) {rdA a d g : Nat} (k : At s ti rdA a d g) (hal : a % sz d = 0) :
    step P s (.rttReadEntry rdA a (3 - (d : Int))) = some (s, {
      x1 := if d = 4 then 2 ^ 64 - 1 else 3 - d
      x2 := (readRegs (rdOf s rdA) (tabOf s g (idx d a))).1
      x3 := (readRegs (rdOf s rdA) (tabOf s g (idx d a))).2.1
      x4 := (readRegs (rdOf s rdA) (tabOf s g (idx d a))).2.2 }) := by
  show rttReadEntry P s rdA a _ = _
  unfold rttReadEntry
  have hdd := k.depth h
  rw [if_pos ((lk_iff ..).mpr ⟨h.trk _ (by rw [k.rd]; simp), k.rd⟩), getRd_eq h k.rd]
  dsimp only
  have hv : validateEntry (rdOf s rdA) a (3 - (d : Int)) = true := by
    refine (validateEntry_iff _ _ _).mpr ⟨d, rfl, hdd, (validateMapAddr_iff _ _ _).mpr ⟨k.lt, hal, ?_⟩⟩
    have h1 := k.lt
    have h2 := k.lt52 h
    have h3 := (h.rds _ k.rd).geo.bits
    by_cases hl : (rdOf s rdA).lpa2 = true
    · rw [if_pos hl]; exact h2
    · rw [if_neg hl] at h3 ⊢
      exact lt_of_lt_of_le h1 (Nat.pow_le_pow_right (by omega) h3)
  rw [if_pos hv, dOf_sub]
  obtain ⟨g', d', hw, hat, hge, hstop⟩ := walk_at h k.rd k.lt hdd
  obtain ⟨rfl, rfl⟩ := k.reached h hat hge hstop
  rw [hw]
  dsimp only
  rw [getTab_eq h hat.st]

/-- C12: reading back a fresh unprotected mapping returns the host's descriptor. -/
theorem C12_map_read (hP : PlatOk P) (hr : Reach P s) {rd a : Nat} {lvl : Int} {desc : BitVec 64}
    (e : step P s (.rttMapUnprotected rd a lvl desc) = some (s', ret)) (h0 : ret.status = 0) :
    step P s' (.rttReadEntry rd a lvl) =
      some (s', { x1 := lvl.toNat, x2 := 1, x3 := desc.toNat, x4 := 0 }) := by
  obtain ⟨ti, di, rl, h⟩ := hr.inv hP
  obtain ⟨d, g, rfl, k⟩ := step_eff' hP h e rfl h0
  have hd := k.d2
  have h' := k.inv h
  have hrd : rdOf s' rd = rdOf s rd := by
    rw [k.st]; exact rdOf_congr (upd_ne _ _ _ (ne_of_st k.at_.rd k.at_.st (by simp)))
  have htab : tabOf s' g (idx d a) = hostEntry (rdOf s rd) desc (3 - (d : Int)) := by
    rw [k.st]; rw [tabOf_of_mem (upd_same _ _ _), upd_same]
  have hat : At s' ti rd a d g := ⟨by rw [k.st]; exact k.at_.rd, by rw [hrd]; exact k.at_.lt,
    by rw [k.st]; exact k.at_.st, k.at_.ti⟩
  have hok := (S2tte.C12_host_descriptor_valid_iff _ _ _ (by omega) (by omega)).mp k.valid
  rw [read_at h' hat k.al, htab, hrd]
  simp only [hostEntry, readRegs, BitVec.ofNat_toNat, BitVec.setWidth_eq]
  rw [hostDesc_split _ _ _ (by omega) hok, if_neg (by omega), show (3 - (d : Int)).toNat = 3 - d by omega]

/-- C12: a successful RTT_UNMAP_UNPROTECTED was given an unprotected, aligned address;
the whole addressed range was one host mapping.  Afterwards the range is UNASSIGNED_NS
and nothing else changed in any realm. -/
theorem C12_unmap (hP : PlatOk P) (hr : Reach P s) {rd a : Nat} {lvl : Int}
    (e : step P s (.rttUnmapUnprotected rd a lvl) = some (s', ret)) (h0 : ret.status = 0) :
    1 ≤ lvl ∧ lvl ≤ 3 ∧ a % entrySize lvl = 0 ∧ parOf s rd ≤ a ∧ a < ipaOf s rd ∧
    (∃ at_ pa, ∀ x, a ≤ x → x < a + entrySize lvl →
      view s rd x = some (.assignedNs at_ (pa + (x - a) / 4096 * 4096))) ∧
    (∀ r x, view s' r x = if r = rd ∧ a ≤ x ∧ x < a + entrySize lvl
      then some .unassignedNs else view s r x) ∧
    (∀ x, s'.st x = s.st x ∧ s'.rc x = s.rc x ∧ (s.st x ≠ .rtt → s'.mem x = s.mem x)) := by
  obtain ⟨ti, di, rl, h⟩ := hr.inv hP
  obtain ⟨d, g, rfl, k⟩ := step_eff' hP h e rfl h0
  have hd := k.d2
  rw [entrySize_eq rfl, ← par_eq h k.at_.rd]
  have hge := k.at_.lt
  obtain ⟨at_, pa, hent⟩ := k.ent
  refine ⟨by omega, by omega, k.al, k.par, hge, ⟨at_, pa, ?_⟩, ?_, ?_⟩
  · intro x h1 h2
    have hio := k.at_.region h k.al h1 h2
    have h5 := leaf_at h hio.1 (by rw [hio.2, hent]; simp)
    rw [hio.2, hent] at h5
    rw [view_of_leaf h5]
    simp only [pageView]
    rw [mod_of_region k.al h1 h2]
  · intro r x
    unfold view
    rw [k.leaf h r x]
    by_cases hc : r = rd ∧ a ≤ x ∧ x < a + sz d
    · rw [if_pos hc, if_pos hc]; rfl
    · rw [if_neg hc, if_neg hc]
  · intro x
    rw [k.st]
    refine ⟨rfl, rfl, fun hx => upd_ne _ _ _ (fun hh => hx (hh ▸ k.at_.st))⟩

/-- C12: mapping and then unmapping at the same level restores what every realm sees,
and the unmapping succeeds. -/
theorem C12_map_unmap (hP : PlatOk P) (hr : Reach P s) {rd a : Nat} {lvl : Int} {desc : BitVec 64}
    (e : step P s (.rttMapUnprotected rd a lvl desc) = some (s', ret)) (h0 : ret.status = 0) :
    ∃ s'' ret', step P s' (.rttUnmapUnprotected rd a lvl) = some (s'', ret') ∧ ret'.status = 0 ∧
      ∀ r x, view s'' r x = view s r x := by
  have hm := C12_map hP hr e h0
  obtain ⟨ti, di, rl, h⟩ := hr.inv hP
  have hr' : Reach P s' := .step hr e
  obtain ⟨d, g, rfl, k⟩ := step_eff' hP h e rfl h0
  have hd := k.d2
  have h' := k.inv h
  have hrd : rdOf s' rd = rdOf s rd := by
    rw [k.st]; exact rdOf_congr (upd_ne _ _ _ (ne_of_st k.at_.rd k.at_.st (by simp)))
  have htab : tabOf s' g (idx d a) = hostEntry (rdOf s rd) desc (3 - (d : Int)) := by
    rw [k.st]; rw [tabOf_of_mem (upd_same _ _ _), upd_same]
  have hat : At s' ti rd a d g := ⟨by rw [k.st]; exact k.at_.rd, by rw [hrd]; exact k.at_.lt,
    by rw [k.st]; exact k.at_.st, k.at_.ti⟩
  have hu : ∃ s'' ret', step P s' (.rttUnmapUnprotected rd a (3 - (d : Int))) = some (s'', ret') ∧ ret'.status = 0 := by
    show ∃ s'' ret', rttUnmapUnprotected P s' rd a _ = some (s'', ret') ∧ ret'.status = 0
    unfold rttUnmapUnprotected
    have hdd := hat.depth h'
    rw [if_pos (by omega), if_pos ((lk_iff ..).mpr ⟨h'.trk _ (by rw [hat.rd]; simp), hat.rd⟩), getRd_eq h' hat.rd]
    dsimp only
    have hv : validateMap (rdOf s' rd) a (3 - (d : Int)) = true := by
      unfold validateMap
      simp only [Bool.and_eq_true, decide_eq_true_eq]
      refine ⟨by omega, ?_⟩
      rw [dOf_sub]
      refine (validateMapAddr_iff _ _ _).mpr ⟨hat.lt, k.al, ?_⟩
      have h1 := hat.lt
      have h2 := hat.lt52 h'
      have h3 := (h'.rds _ hat.rd).geo.bits
      by_cases hl : (rdOf s' rd).lpa2 = true
      · rw [if_pos hl]; exact h2
      · rw [if_neg hl] at h3 ⊢
        exact lt_of_lt_of_le h1 (Nat.pow_le_pow_right (by omega) h3)
    have hnp : ¬ (rdOf s' rd).inPar a = true := by
      rw [inPar_iff, hrd]; have := k.par; omega
    rw [if_pos hv, if_neg hnp, dOf_sub]
    obtain ⟨g', d', hw, hat', hge, hstop⟩ := walk_at h' hat.rd hat.lt hdd
    obtain ⟨rfl, rfl⟩ := hat.reached h' hat' hge hstop
    rw [hw]
    dsimp only
    rw [getTab_eq h' hat.st]
    dsimp only
    rw [if_pos rfl, htab]
    exact ⟨_, _, rfl, rfl⟩
  obtain ⟨s'', ret', hs, hst⟩ := hu
  refine ⟨s'', ret', hs, hst, ?_⟩
  have hun := C12_unmap hP hr' hs hst
  intro r x
  rw [hun.2.2.2.2.2.2.1 r x]
  by_cases hc : r = rd ∧ a ≤ x ∧ x < a + entrySize (3 - (d : Int))
  · rw [if_pos hc, hc.1, hm.2.2.2.2.2.2.1 x hc.2.1 hc.2.2]
  · rw [if_neg hc, hm.2.2.2.2.2.2.2.1 r x, if_neg hc]

example : ∃ s s' ret, Reach plat s ∧
    step plat s (.rttMapUnprotected (G 16) (2 ^ 32 + 4096) 3 0x900c) = some (s', ret) ∧
    (ret.status == 0 && view s (G 16) (2 ^ 32 + 4096) == some .unassignedNs &&
      view s' (G 16) (2 ^ 32 + 4096) == some (.assignedNs 0xc 0x9000)) = true :=
  ex_step all _ _ (by decide +kernel)

/-- A 2MB block. -/
example : ∃ s s' ret, Reach plat s ∧
    step plat s (.rttMapUnprotected (G 16) (2 ^ 32 + 2 ^ 21) 2 0x200000) = some (s', ret) ∧
    (ret.status == 0 && view s' (G 16) (2 ^ 32 + 2 ^ 21 + 8192) == some (.assignedNs 0 0x202000)) = true :=
  ex_step all _ _ (by decide +kernel)

example : ∃ s s' ret, Reach plat s ∧ step plat s (.rttUnmapUnprotected (G 16) (2 ^ 32) 3) = some (s', ret) ∧
    (ret.status == 0 && view s (G 16) (2 ^ 32) == some (.assignedNs 0 0x9000)) = true :=
  ex_step all _ _ (by decide +kernel)

end
end Verif.Rmm
