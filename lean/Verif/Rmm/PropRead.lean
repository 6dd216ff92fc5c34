import Verif.Rmm.PropNs

/-!
# What the host is told about a realm's address space (C16, C17)

The statements compare the answers with `view`, `leaf` and `hwWalk`, which read the
tables in memory the way the hardware walk does.
-/

namespace Verif.Rmm

open Verif.S2tte.Spec

section
variable {P : Plat} {s s' : State} {ret : Ret} {ti : Nat → TabInfo} {di : Nat → Nat × Nat} {rl : Nat → List Nat}

/-- The walk goes on through a table entry. -/
theorem At.below (h : InvG P s ti di rl) {rdA x d g c : Nat} (k : At s ti rdA x d g)
    (hc : tabOf s g (idx d x) = .table c) :
    s.st c = .rtt ∧ 1 ≤ d ∧ ∃ e d', d' < d ∧ (∀ c, e ≠ .table c) ∧ hwWalk s x (d - 1) c = some (e, d') ∧
      leaf s rdA x = some (e, d') := by
  have hent := k.ent h
  rw [hc] at hent
  obtain ⟨_, h1, h2, h3, _⟩ := hent
  have h52 := k.lt52 h
  have h3' : ti c = ⟨rdA, d - 1, Rmm.al (d - 1) x⟩ := by
    rw [h3]; congr 1
    unfold Rmm.al
    rw [show d - 1 + 1 = d by omega]
  obtain ⟨g', d', h4, h5, h6, h7, h8⟩ := hwWalk_spec h h52 (d - 1) c h2 h3'
  exact ⟨h2, h1, _, _, by omega, h7, h8, leaf_at h ⟨k.rd, k.lt, h5, h6⟩ h7⟩

/-- All addresses of the region of an entry reach that entry, wherever in the region
`a` is. -/
theorem At.region' (h : InvG P s ti di rl) {rdA a d g x : Nat} (k : At s ti rdA a d g)
    (h1 : a / sz d * sz d ≤ x) (h2 : x < a / sz d * sz d + sz d) :
    At s ti rdA x d g ∧ idx d x = idx d a := by
  have hdd := k.depth h
  have hG := (h.rds rdA k.rd).geo
  have hlt : x < (rdOf s rdA).ipaSize := by
    refine region_below ((sz_dvd hdd).trans hG.ipa_dvd) (Nat.mul_mod_left _ _) ?_ h2
    exact lt_of_le_of_lt (Nat.div_mul_le_self _ _) k.lt
  have h52 := hG.ipa_lt
  have := (at_entry h k (x := x) (by omega) (idx d a) (idx_lt _ _)).mp (by
    rw [al_add _ _ (k.lt52 h)]; exact ⟨h1, h2⟩)
  exact ⟨⟨k.rd, hlt, k.st, by rw [k.ti, this.1]⟩, this.2⟩

/-! ## C16 -/

/-- The first level of the realm's tables. -/
def startLevel (s : State) (r : Nat) : Int := 3 - ((rdOf s r).d0 : Int)

theorem readEntry_iff (h : InvG P s ti di rl) (rdA a : Nat) (lvl : Int) :
    ∃ ret, rttReadEntry P s rdA a lvl = some (s, ret) ∧
      (ret.status = 0 ↔ s.st rdA = .rd ∧ 3 - ((rdOf s rdA).d0 : Int) ≤ lvl ∧ lvl ≤ 3 ∧
        a < (rdOf s rdA).ipaSize ∧ a % entrySize lvl = 0) := by
  unfold rttReadEntry
  by_cases h1 : lk P s rdA .rd = true
  swap
  · rw [if_neg h1]
    refine ⟨_, rfl, iff_of_false (by decide) ?_⟩
    rintro ⟨h2, _⟩
    exact h1 ((lk_iff ..).mpr ⟨h.trk _ (by rw [h2]; simp), h2⟩)
  rw [if_pos h1]
  rw [lk_iff] at h1
  obtain ⟨_, hrd⟩ := h1
  rw [getRd_eq h hrd]
  dsimp only
  by_cases h2 : validateEntry (rdOf s rdA) a lvl = true
  swap
  · rw [if_neg h2]
    refine ⟨_, rfl, iff_of_false (by decide) ?_⟩
    rintro ⟨_, h3, h4, h5, h6⟩
    apply h2
    have hG := (h.rds rdA hrd).geo.ipa_lt
    have e : lvl = 3 - ((3 - lvl).toNat : Int) := by omega
    refine (validateEntry_iff _ _ _).mpr ⟨(3 - lvl).toNat, e, by omega, (validateMapAddr_iff _ _ _).mpr ?_⟩
    rw [entrySize_eq e] at h6
    refine ⟨h5, h6, ?_⟩
    have hb := (h.rds rdA hrd).geo.bits
    by_cases hl : (rdOf s rdA).lpa2 = true
    · rw [if_pos hl]; omega
    · rw [if_neg hl] at hb ⊢
      exact lt_of_lt_of_le h5 (Nat.pow_le_pow_right (by omega) hb)
  rw [if_pos h2]
  obtain ⟨d, rfl, hd, hv2⟩ := (validateEntry_iff _ _ _).mp h2
  obtain ⟨hlt, hal, _⟩ := (validateMapAddr_iff _ _ _).mp hv2
  rw [dOf_sub]
  obtain ⟨g, dw, hw, hat, hge, hstop⟩ := walk_at h hrd hlt hd
  rw [hw]
  dsimp only
  rw [getTab_eq h hat.st]
  refine ⟨_, rfl, iff_of_true rfl ⟨hrd, by omega, by omega, hlt, ?_⟩⟩
  rw [entrySize_eq rfl]; exact hal

/-- C16: RTT_READ_ENTRY always returns, changes nothing, and succeeds exactly for a
realm, a level between its starting level and 3, and an address of its address space
aligned to an entry of that level. -/
theorem C16_succeeds_iff (hP : PlatOk P) (hr : Reach P s) (rd a : Nat) (lvl : Int) :
    ∃ ret, step P s (.rttReadEntry rd a lvl) = some (s, ret) ∧
      (ret.status = 0 ↔ s.st rd = .rd ∧ startLevel s rd ≤ lvl ∧ lvl ≤ 3 ∧ a < ipaOf s rd ∧
        a % entrySize lvl = 0) := by
  obtain ⟨ti, di, rl, h⟩ := hr.inv hP
  exact readEntry_iff h rd a lvl

/-- The reply of RTT_READ_ENTRY for a region of entries of level `L` starting at `b`
(x2 = 0 UNASSIGNED, 1 ASSIGNED, 2 TABLE, RMM specification B4.4.21): it says what the
realm finds at every address of the region. -/
def Truthful (s : State) (rd b : Nat) (L : Int) (x2 x3 x4 : Nat) : Prop :=
  (x2 = 0 ∧ x3 = 0 ∧ ∃ rp : Ripas, x4 = rp.code ∧ ∀ x, b ≤ x → x < b + entrySize L →
      x < parOf s rd ∧ view s rd x = some (.unassigned rp)) ∨
  (x2 = 0 ∧ x3 = 0 ∧ x4 = 0 ∧ ∀ x, b ≤ x → x < b + entrySize L →
      parOf s rd ≤ x ∧ view s rd x = some .unassignedNs) ∨
  (x2 = 1 ∧ x3 % entrySize L = 0 ∧ ∃ rp : Ripas, x4 = rp.code ∧ ∀ x, b ≤ x → x < b + entrySize L →
      x < parOf s rd ∧ view s rd x = some (.assigned rp (x3 + (x - b) / 4096 * 4096))) ∨
  (x2 = 1 ∧ x4 = 0 ∧ x3 < 2 ^ 64 ∧ HostOk (rdOf s rd).lpa2 L (BitVec.ofNat 64 x3) ∧
    ∀ x, b ≤ x → x < b + entrySize L → parOf s rd ≤ x ∧
      view s rd x = some (.assignedNs (BitVec.ofNat 64 x3 &&& S2tte.NS_ATTR_MASK)
        ((S2tte.toPa (BitVec.ofNat 64 x3) L (rdOf s rd).lpa2).toNat + (x - b) / 4096 * 4096))) ∨
  (x2 = 2 ∧ x4 = 0 ∧ L < 3 ∧ s.st x3 = .rtt ∧ ∀ x, b ≤ x → x < b + entrySize L →
    ∃ q, hwWalk s x (3 - (L + 1)).toNat x3 = some q ∧ leaf s rd x = some q)

/-- The descriptor shown to the host, back to attributes and output address. -/
theorem hostDesc_join {r : Rd} {d pa : Nat} {at_ : BitVec 64} (hd : d ≤ 2) (k : NsOk r d at_ pa) :
    HostOk r.lpa2 (3 - (d : Int)) (at_ ||| S2tte.paToS2tte (BitVec.ofNat 64 pa) r.lpa2) ∧
    (at_ ||| S2tte.paToS2tte (BitVec.ofNat 64 pa) r.lpa2) &&& S2tte.NS_ATTR_MASK = at_ ∧
    S2tte.toPa (at_ ||| S2tte.paToS2tte (BitVec.ofNat 64 pa) r.lpa2) (3 - (d : Int)) r.lpa2 =
      BitVec.ofNat 64 pa ∧ (BitVec.ofNat 64 pa).toNat = pa := by
  have hlt := k.lt
  have h64 : pa < 2 ^ 64 := lt_of_lt_of_le hlt (Nat.pow_le_pow_right (by omega) (by split <;> omega))
  have hn : (BitVec.ofNat 64 pa).toNat = pa := by
    rw [BitVec.toNat_ofNat]; exact Nat.mod_eq_of_lt h64
  have hoff : offBits (3 - (d : Int)) = 12 + 9 * d := by unfold offBits; omega
  have hok : PaOk r.lpa2 (3 - (d : Int)) (BitVec.ofNat 64 pa) := by
    unfold PaOk
    rw [hn, hoff, ← sz_eq]
    exact ⟨k.al, hlt⟩
  rw [S2tte.paOk_iff_bits, hoff] at hok
  unfold paBits at hok
  have hb := k.bits
  have ha := k.attr
  generalize BitVec.ofNat 64 pa = w at *
  cases hl : r.lpa2 with
  | false =>
    rw [hl] at hok
    have e : S2tte.paToS2tte w false = w := rfl
    rw [e]
    have hw : ∀ i, w.getLsbD i = true → 12 + 9 * d ≤ i ∧ i < 48 := hok
    refine ⟨⟨?_, ?_⟩, ?_, ?_, hn⟩
    · intro i hi
      unfold hostBit
      rw [hoff]
      rw [BitVec.getLsbD_or] at hi
      have := hb i; have := hw i
      grind
    · rw [BitVec.getLsbD_or, BitVec.getLsbD_or, BitVec.getLsbD_or]
      have := hw 2; have := hw 3; have := hw 4
      grind
    · apply BitVec.eq_of_getLsbD_eq
      intro i hi
      rw [BitVec.getLsbD_and, BitVec.getLsbD_or, S2tte.bits_NS_ATTR_MASK]
      have h1 := hb i; have h2 := hw i
      cases hv : at_.getLsbD i <;> cases hv2 : w.getLsbD i <;> simp [hv, hv2] at h1 h2 ⊢ <;> omega
    · apply BitVec.eq_of_getLsbD_eq
      intro i hi
      rw [S2tte.getLsbD_toPa _ _ _ (by omega), S2tte.lsbOf_eq, hoff]
      unfold hwOaBit
      rw [BitVec.getLsbD_or]
      have h1 := hb i; have h2 := hw i
      cases hv : at_.getLsbD i <;> cases hv2 : w.getLsbD i <;> simp [hv, hv2] at h1 h2 ⊢ <;> omega
  | true =>
    rw [hl] at hok
    have hw : ∀ i, w.getLsbD i = true → 12 + 9 * d ≤ i ∧ i < 52 := hok
    refine ⟨⟨?_, ?_⟩, ?_, ?_, hn⟩
    · intro i hi
      unfold hostBit
      rw [hoff]
      rw [BitVec.getLsbD_or, S2tte.getLsbD_paToS2tte] at hi
      have := hb i; have := hw i; have := hw (i + 42)
      grind
    · simp only [BitVec.getLsbD_or, S2tte.getLsbD_paToS2tte]
      have := hw 2; have := hw 3; have := hw 4
      grind
    · apply BitVec.eq_of_getLsbD_eq
      intro i hi
      rw [BitVec.getLsbD_and, BitVec.getLsbD_or, S2tte.bits_NS_ATTR_MASK, S2tte.getLsbD_paToS2tte]
      have h1 := hb i; have h2 := hw i
      cases hv : at_.getLsbD i <;> cases hv2 : w.getLsbD i <;> simp [hv, hv2] at h1 h2 ⊢ <;> grind
    · apply BitVec.eq_of_getLsbD_eq
      intro i hi
      rw [S2tte.getLsbD_toPa _ _ _ (by omega), S2tte.lsbOf_eq, hoff]
      unfold hwOaBit
      simp only [BitVec.getLsbD_or, S2tte.getLsbD_paToS2tte]
      have h1 := hb i; have h2 := hw i; have h3 := hb (i - 42); have h4 := hw (i - 42)
      by_cases h5 : i = 50 ∨ i = 51
      · rw [if_neg (by omega), if_neg (by omega), if_pos ⟨trivial, h5⟩, show i - 42 + 42 = i by omega]
        have a1 : at_.getLsbD (i - 42) = false := by
          cases hv : at_.getLsbD (i - 42)
          · rfl
          · have := h3 hv; omega
        have a2 : w.getLsbD (i - 42) = false := by
          cases hv : w.getLsbD (i - 42)
          · rfl
          · have := h4 hv; omega
        rw [a1, a2]
        rcases h5 with rfl | rfl <;> simp
      · cases hv : at_.getLsbD i <;> cases hv2 : w.getLsbD i <;> simp [hv, hv2] at h1 h2 ⊢ <;> grind

/-- C16: a successful RTT_READ_ENTRY reports a level `L` between the starting level and
the requested one, and the truth about every address of the level `L` entry around
`a`: no table unless the walk reached the requested level, and for an unprotected
mapping just the bits a host may supply. -/
theorem C16_truthful (hP : PlatOk P) (hr : Reach P s) {rd a : Nat} {lvl : Int}
    (e : step P s (.rttReadEntry rd a lvl) = some (s', ret)) (h0 : ret.status = 0) :
    s' = s ∧ ∃ L : Int, startLevel s rd ≤ L ∧ L ≤ lvl ∧ ret.x1 = (BitVec.ofInt 64 L).toNat ∧
      (ret.x2 = 2 → L = lvl) ∧
      Truthful s rd (a / entrySize L * entrySize L) L ret.x2 ret.x3 ret.x4 := by
  obtain ⟨ti, di, rl, h⟩ := hr.inv hP
  obtain ⟨ret', e', hsp⟩ := rttReadEntry_spec h rd a lvl
  have e2 : rttReadEntry P s rd a lvl = some (s', ret) := e
  rw [e2] at e'
  injection e' with e'
  injection e' with e1 e3
  subst e1 e3
  refine ⟨rfl, ?_⟩
  rcases hsp with hsp | ⟨tgt, d, g, rfl, k⟩
  · exact absurd h0 hsp
  have k0 := k.at_
  have hdd := k0.depth h
  have hd4 := (h.rds rd k0.rd).geo.d0
  have hge := k.ge
  refine ⟨3 - (d : Int), by unfold startLevel; omega, by omega, ?_, ?_, ?_⟩
  · rw [k.ret]
    have hd5 : d ≤ 4 := by
      have : (if (rdOf s' rd).lpa2 = true then 4 else 3) ≤ 4 := by split <;> omega
      omega
    have : d = 0 ∨ d = 1 ∨ d = 2 ∨ d = 3 ∨ d = 4 := by omega
    dsimp only
    rcases this with rfl | rfl | rfl | rfl | rfl <;> decide
  · intro h2
    by_contra hne
    have hs := k.stop (by omega)
    rw [k.ret] at h2
    cases hx : tabOf s' g (idx d a) with
    | table c => exact hs c hx
    | _ => rw [hx] at h2; simp [readRegs] at h2
  · have hreg : ∀ x, a / sz d * sz d ≤ x → x < a / sz d * sz d + sz d →
        At s' ti rd x d g ∧ idx d x = idx d a := fun x h1 h2 => k0.region' h h1 h2
    have hlf : (∀ c, tabOf s' g (idx d a) ≠ .table c) → ∀ x, a / sz d * sz d ≤ x → x < a / sz d * sz d + sz d →
        view s' rd x = pageView d x (tabOf s' g (idx d a)) ∧ x < (rdOf s' rd).ipaSize := by
      intro hn x h1 h2
      obtain ⟨k1, k2⟩ := hreg x h1 h2
      have := leaf_at h k1 (by rw [k2]; exact hn)
      rw [k2] at this
      exact ⟨view_of_leaf this, k1.lt⟩
    have hmod : ∀ x, a / sz d * sz d ≤ x → x < a / sz d * sz d + sz d → x % sz d = x - a / sz d * sz d :=
      fun x h1 h2 => mod_of_region (Nat.mul_mod_left _ _) h1 h2
    have hent := k0.ent h
    unfold Truthful
    rw [entrySize_eq rfl, k.ret, ← par_eq h k0.rd]
    dsimp only
    cases hx : tabOf s' g (idx d a) with
    | unassigned rp =>
      refine Or.inl ⟨rfl, rfl, rp, rfl, ?_⟩
      intro x h1 h2
      obtain ⟨hv, hlt⟩ := hlf (by rw [hx]; simp) x h1 h2
      rw [hx] at hv
      refine ⟨?_, hv⟩
      rcases view_half h k0.rd hlt with h3 | ⟨_, h3 | ⟨_, _, h3⟩⟩
      · exact h3.1
      · rw [hv] at h3; simp [pageView] at h3
      · rw [hv] at h3; simp [pageView] at h3
    | unassignedNs =>
      refine Or.inr (Or.inl ⟨rfl, rfl, rfl, ?_⟩)
      intro x h1 h2
      obtain ⟨hv, hlt⟩ := hlf (by rw [hx]; simp) x h1 h2
      rw [hx] at hv
      refine ⟨?_, hv⟩
      rcases view_half h k0.rd hlt with ⟨_, ⟨_, h3⟩ | ⟨_, _, h3⟩⟩ | h3
      · rw [hv] at h3; simp [pageView] at h3
      · rw [hv] at h3; simp [pageView] at h3
      · exact h3.1
    | assigned rp pa =>
      rw [hx] at hent
      refine Or.inr (Or.inr (Or.inl ⟨rfl, hent.2.2.1, rp, rfl, ?_⟩))
      intro x h1 h2
      obtain ⟨hv, hlt⟩ := hlf (by rw [hx]; simp) x h1 h2
      rw [hx] at hv
      have hv' : view s' rd x = some (.assigned rp (pa + (x - a / sz d * sz d) / 4096 * 4096)) := by
        rw [hv, ← hmod x h1 h2]; rfl
      refine ⟨?_, hv'⟩
      rcases view_half h k0.rd hlt with h3 | ⟨_, h3 | ⟨_, _, h3⟩⟩
      · exact h3.1
      · rw [hv'] at h3; simp at h3
      · rw [hv'] at h3; simp at h3
    | assignedNs at_ pa =>
      rw [hx] at hent
      obtain ⟨j1, j2, j3, j4⟩ := hostDesc_join hent.2.2.1 hent.2.2.2
      refine Or.inr (Or.inr (Or.inr (Or.inl ⟨rfl, rfl, BitVec.isLt _, ?_, ?_⟩)))
      · simp only [readRegs]
        rw [BitVec.ofNat_toNat, BitVec.setWidth_eq]
        exact j1
      · intro x h1 h2
        obtain ⟨hv, hlt⟩ := hlf (by rw [hx]; simp) x h1 h2
        rw [hx] at hv
        simp only [readRegs]
        rw [BitVec.ofNat_toNat, BitVec.setWidth_eq, j2, j3, j4]
        have hv' : view s' rd x = some (.assignedNs at_ (pa + (x - a / sz d * sz d) / 4096 * 4096)) := by
          rw [hv, ← hmod x h1 h2]; rfl
        refine ⟨?_, hv'⟩
        rcases view_half h k0.rd hlt with ⟨_, ⟨_, h3⟩ | ⟨_, _, h3⟩⟩ | h3
        · rw [hv'] at h3; simp at h3
        · rw [hv'] at h3; simp at h3
        · exact h3.1
    | table c =>
      obtain ⟨b1, b2, _⟩ := k0.below h hx
      refine Or.inr (Or.inr (Or.inr (Or.inr ⟨rfl, rfl, by omega, b1, ?_⟩)))
      intro x h1 h2
      obtain ⟨k1, k2⟩ := hreg x h1 h2
      obtain ⟨_, _, e, d', _, _, b3, b4⟩ := k1.below h (by rw [k2]; exact hx)
      refine ⟨_, ?_, b4⟩
      simp only [readRegs]
      rw [show (3 - (3 - (d : Int) + 1)).toNat = d - 1 by omega]
      exact b3

/-! ## C17 -/

/-- Number of entries of a table at level `L`: 16 at level -1, else 512. -/
def entries (L : Int) : Nat := if L = -1 then 16 else 512

/-- Nothing but unassigned level `L` entries lie between `a` and `top`, which is `a`
or an entry boundary. -/
structure Skips (s : State) (rd a : Nat) (L : Int) (top : Nat) : Prop where
  ge : a ≤ top
  boundary : top = a ∨ top % entrySize L = 0
  skipped : ∀ x, a ≤ x → x < top → x < ipaOf s rd →
    ∃ e, leaf s rd x = some (e, (3 - L).toNat) ∧ ((∃ rp, e = .unassigned rp) ∨ e = .unassignedNs)

/-- `top` is the end of the table of level `L` around `a`, or it is translated by a
lower table or mapped by an entry of level `L`. -/
def Stops (s : State) (rd a : Nat) (L : Int) (top : Nat) : Prop :=
  top = (a / (entries L * entrySize L) + 1) * (entries L * entrySize L) ∨
    ∃ e d, leaf s rd top = some (e, d) ∧
      (d < (3 - L).toNat ∨ (d = (3 - L).toNat ∧ ((∃ rp pa, e = .assigned rp pa) ∨ ∃ at_ pa, e = .assignedNs at_ pa)))

theorem scan_spec (t : Nat → Entry) : ∀ n i, i ≤ scan t n i ∧ scan t n i ≤ i + n ∧
    (∀ j, i ≤ j → j < scan t n i → (t j).live = false) ∧ (scan t n i < i + n → (t (scan t n i)).live = true) := by
  intro n
  induction n with
  | zero => intro i; unfold scan; exact ⟨by omega, by omega, by omega, by omega⟩
  | succ n ih =>
    intro i
    unfold scan
    by_cases h : (t i).live = true
    · rw [if_pos h]; exact ⟨by omega, by omega, by omega, fun _ => h⟩
    · rw [if_neg h]
      obtain ⟨h1, h2, h3, h4⟩ := ih (i + 1)
      refine ⟨by omega, by omega, ?_, fun h5 => h4 (by omega)⟩
      intro j hj hj2
      by_cases hji : j = i
      · subst hji; simpa using h
      · exact h3 j (by omega) hj2

theorem Entry.live_cases (e : Entry) :
    (e.live = true ∧ ((∃ rp pa, e = .assigned rp pa) ∨ (∃ at_ pa, e = .assignedNs at_ pa) ∨ ∃ c, e = .table c)) ∨
    (e.live = false ∧ ((∃ rp, e = .unassigned rp) ∨ e = .unassignedNs)) := by
  cases e <;> simp [Entry.live]

/-- A live entry of a table, seen from an address below it. -/
theorem At.live_leaf (h : InvG P s ti di rl) {rdA x d g : Nat} (k : At s ti rdA x d g)
    (hl : (tabOf s g (idx d x)).live = true) :
    ∃ e d', leaf s rdA x = some (e, d') ∧
      (d' < d ∨ (d' = d ∧ ((∃ rp pa, e = .assigned rp pa) ∨ ∃ at_ pa, e = .assignedNs at_ pa))) := by
  rcases Entry.live_cases (tabOf s g (idx d x)) with ⟨_, h1 | h1 | ⟨c, h1⟩⟩ | ⟨h1, _⟩
  · obtain ⟨rp, pa, h1⟩ := h1
    exact ⟨_, _, leaf_at h k (by rw [h1]; simp), Or.inr ⟨rfl, Or.inl ⟨_, _, h1⟩⟩⟩
  · obtain ⟨rp, pa, h1⟩ := h1
    exact ⟨_, _, leaf_at h k (by rw [h1]; simp), Or.inr ⟨rfl, Or.inr ⟨_, _, h1⟩⟩⟩
  · obtain ⟨_, _, e, d', h2, _, _, h4⟩ := k.below h h1
    exact ⟨e, d', h4, Or.inl h2⟩
  · rw [hl] at h1; cases h1

theorem skip_spec (h : InvG P s ti di rl) {rdA a d g : Nat} (k : At s ti rdA a d g) (hd : d ≤ 4) :
    Skips s rdA a (3 - (d : Int)) (skipNonLive (tabOf s g) ⟨g, d, idx d a⟩ a) ∧
    (d ≤ 3 → Stops s rdA a (3 - (d : Int)) (skipNonLive (tabOf s g) ⟨g, d, idx d a⟩ a)) ∧
    ((tabOf s g (idx d a)).live = false →
      a / sz d * sz d + sz d ≤ skipNonLive (tabOf s g) ⟨g, d, idx d a⟩ a) := by
  have hp := sz_pos d
  have hL : (3 - (3 - (d : Int))).toNat = d := by omega
  unfold skipNonLive
  dsimp only
  by_cases hl : (tabOf s g (idx d a)).live = true
  · rw [if_pos hl]
    refine ⟨⟨Nat.le_refl _, Or.inl rfl, fun x h1 h2 => absurd h1 (by omega)⟩, fun _ => Or.inr ?_,
      fun hf => by rw [hl] at hf; cases hf⟩
    rw [hL]
    exact k.live_leaf h hl
  rw [if_neg hl]
  have hi := idx_lt d a
  obtain ⟨s1, s2, s3, s4⟩ := scan_spec (tabOf s g) (511 - idx d a) (idx d a + 1)
  generalize scan (tabOf s g) (511 - idx d a) (idx d a + 1) = j at *
  have hadd := al_add d a (k.lt52 h)
  have hmid : a / sz d * sz d + (j - idx d a) * sz d = Rmm.al d a + j * sz d := by
    rw [← hadd, Nat.add_assoc, ← Nat.add_mul]
    congr 2; omega
  have hge : a / sz d * sz d + sz d ≤ a / sz d * sz d + (j - idx d a) * sz d :=
    Nat.add_le_add_left (Nat.le_mul_of_pos_left _ (by omega)) _
  have hlta : a < a / sz d * sz d + sz d := by
    have := Nat.div_add_mod a (sz d); rw [Nat.mul_comm] at this
    have := Nat.mod_lt a hp; omega
  refine ⟨⟨by omega, Or.inr ?_, ?_⟩, fun hd3 => ?_, fun _ => hge⟩
  · rw [entrySize_eq rfl, ← Nat.add_mul]; exact Nat.mul_mod_left _ _
  · intro x h1 h2 h3
    rw [hmid] at h2
    have h3' : x < (rdOf s rdA).ipaSize := h3
    have h52 := (h.rds rdA k.rd).geo.ipa_lt
    have hale : Rmm.al d a ≤ x := le_trans (Nat.div_mul_le_self _ _) h1
    -- the entry of x
    have hm : (x - Rmm.al d a) / sz d < j := by
      rw [Nat.div_lt_iff_lt_mul hp]; omega
    have hin := (at_entry h k (x := x) (by omega) ((x - Rmm.al d a) / sz d) (by omega)).mp (by
      have e1 := Nat.div_add_mod (x - Rmm.al d a) (sz d)
      rw [Nat.mul_comm] at e1
      have e2 := Nat.mod_lt (x - Rmm.al d a) hp
      omega)
    have k1 : At s ti rdA x d g := ⟨k.rd, h3', k.st, by rw [k.ti, hin.1]⟩
    have hge2 : idx d a ≤ (x - Rmm.al d a) / sz d := by
      rw [Nat.le_div_iff_mul_le hp]
      have : a / sz d * sz d ≤ a := Nat.div_mul_le_self _ _
      omega
    have hnl : (tabOf s g (idx d x)).live = false := by
      rw [hin.2]
      by_cases he : (x - Rmm.al d a) / sz d = idx d a
      · rw [he]; simpa using hl
      · exact s3 _ (by omega) hm
    rw [hL]
    rcases Entry.live_cases (tabOf s g (idx d x)) with ⟨h5, _⟩ | ⟨_, h5⟩
    · rw [hnl] at h5; cases h5
    · refine ⟨_, leaf_at h k1 ?_, h5⟩
      intro c hc; rw [hc] at hnl; cases hnl
  · unfold Stops
    rw [hmid, hL]
    by_cases hj : j < 512
    · right
      have hlive := s4 (by omega)
      have hent := (h.tab g k.st).ent j hj
      rw [k.ti] at hent
      dsimp only at hent
      have hlt : Rmm.al d a + j * sz d < (rdOf s rdA).ipaSize := by
        rcases Entry.live_cases (tabOf s g j) with ⟨_, ⟨_, _, h1⟩ | ⟨_, _, h1⟩ | ⟨_, h1⟩⟩ | ⟨h1, _⟩
        · rw [h1] at hent
          have := hent.1
          unfold Rd.parSize at this
          omega
        · rw [h1] at hent; exact hent.2.1
        · rw [h1] at hent; exact hent.1
        · rw [hlive] at h1; cases h1
      have h52 := (h.rds rdA k.rd).geo.ipa_lt
      have hin := (at_entry h k (x := Rmm.al d a + j * sz d) (by omega) j hj).mp ⟨Nat.le_refl _, by omega⟩
      have k1 : At s ti rdA (Rmm.al d a + j * sz d) d g := ⟨k.rd, hlt, k.st, by rw [k.ti, hin.1]⟩
      exact k1.live_leaf h (by rw [hin.2]; exact hlive)
    · left
      have : j = 512 := by omega
      subst this
      rw [entrySize_eq rfl, show entries (3 - (d : Int)) = 512 by unfold entries; rw [if_neg (by omega)]]
      unfold Rmm.al
      rw [sz_succ, Nat.add_mul, Nat.one_mul]

theorem RdOk.d4 (h : InvG P s ti di rl) {r : Nat} (hr : s.st r = .rd) : (rdOf s r).d0 ≤ 4 := by
  have := (h.rds r hr).geo.d0
  have : (if (rdOf s r).lpa2 = true then 4 else 3) ≤ 4 := by split <;> omega
  omega

/-- The tables a walk reaches stay reached when their granules are kept. -/
theorem At.keep {s' : State} {rdA a d g : Nat} (k : At s ti rdA a d g)
    (hr : s'.st rdA = .rd) (hi : (rdOf s' rdA).ipaSize = (rdOf s rdA).ipaSize) (hg : s'.st g = .rtt) :
    At s' ti rdA a d g := ⟨hr, by rw [hi]; exact k.lt, hg, k.ti⟩

theorem rttDestroy_top (h : InvG P s ti di rl) {rdA a : Nat} {lvl : Int}
    (e : rttDestroy P s rdA a lvl = some (s', ret)) (h4 : ret.status = 4) :
    s' = s ∧ ∃ d g, At s ti rdA a d g ∧ 3 - (d : Int) < lvl ∧
      ret.x2 = skipNonLive (tabOf s g) ⟨g, d, idx d a⟩ a := by
  unfold rttDestroy at e
  by_cases h1 : lk P s rdA .rd = true
  swap
  · rw [if_neg h1] at e; cases e; cases h4
  rw [if_pos h1] at e
  rw [lk_iff] at h1
  obtain ⟨_, hrd⟩ := h1
  rw [getRd_eq h hrd] at e
  dsimp only at e
  by_cases h2 : validateStruct (rdOf s rdA) a lvl = true
  swap
  · rw [if_neg h2] at e; cases e; cases h4
  rw [if_pos h2] at e
  obtain ⟨d, rfl, hd, hv⟩ := (validateStruct_iff _ _ _).mp h2
  obtain ⟨hlt, hal, _⟩ := (validateMapAddr_iff _ _ _).mp hv
  rw [dOf_sub] at e
  obtain ⟨g, dw, hw, hat, hge, hstop⟩ := walk_at h hrd hlt (show d + 1 ≤ _ by omega)
  rw [hw] at e
  dsimp only at e
  rw [getTab_eq h hat.st] at e
  dsimp only at e
  by_cases h5 : dw = d + 1
  swap
  · rw [if_neg h5] at e; cases e
    exact ⟨rfl, dw, g, hat, by omega, rfl⟩
  rw [if_pos h5] at e
  subst h5
  cases he : tabOf s g (idx (d + 1) a) with
  | table c =>
    rw [he] at e
    have k := Child.of h hat hal he
    dsimp only at e
    have : lk P s c .rtt = true := (lk_iff _ _ _ _).mpr ⟨h.trk c (by rw [k.cst]; simp), k.cst⟩
    rw [if_pos this] at e
    by_cases hrc : s.rc c = 0
    · rw [if_pos hrc, if_pos (k.prc h)] at e
      cases e; cases h4
    · rw [if_neg hrc] at e
      cases e
      refine ⟨rfl, _, g, hat, by omega, ?_⟩
      unfold skipNonLive
      rw [he]; rfl
  | _ =>
    rw [he] at e
    cases e
    exact ⟨rfl, _, g, hat, by omega, rfl⟩

theorem rttUnmap_top (h : InvG P s ti di rl) {rdA a : Nat} {lvl : Int}
    (hlv : s.st rdA = .rd → 3 - ((rdOf s rdA).d0 : Int) ≤ lvl)
    (e : rttUnmapUnprotected P s rdA a lvl = some (s', ret)) (h4 : ret.status = 4) :
    s' = s ∧ ∃ d g, At s ti rdA a d g ∧ 3 - (d : Int) ≤ lvl ∧
      ret.x1 = skipNonLive (tabOf s g) ⟨g, d, idx d a⟩ a := by
  unfold rttUnmapUnprotected at e
  by_cases h0 : 1 ≤ lvl ∧ lvl ≤ 3
  swap
  · rw [if_neg h0] at e; cases e; cases h4
  rw [if_pos h0] at e
  by_cases h1 : lk P s rdA .rd = true
  swap
  · rw [if_neg h1] at e; cases e; cases h4
  rw [if_pos h1] at e
  rw [lk_iff] at h1
  obtain ⟨_, hrd⟩ := h1
  rw [getRd_eq h hrd] at e
  dsimp only at e
  by_cases h2 : validateMap (rdOf s rdA) a lvl = true
  swap
  · rw [if_neg h2] at e; cases e; cases h4
  rw [if_pos h2] at e
  obtain ⟨d, rfl, hd2, hv2⟩ := (validateMap_iff _ _ _).mp h2
  obtain ⟨hlt, hal, _⟩ := (validateMapAddr_iff _ _ _).mp hv2
  rw [dOf_sub] at e
  by_cases h3 : (rdOf s rdA).inPar a = true
  · rw [if_pos h3] at e; cases e; cases h4
  rw [if_neg h3] at e
  obtain ⟨g, dw, hw, hat, hge, hstop⟩ := walk_at h hrd hlt (show d ≤ _ by have := hlv hrd; omega)
  rw [hw] at e
  dsimp only at e
  rw [getTab_eq h hat.st] at e
  dsimp only at e
  by_cases h5 : dw = d
  swap
  · rw [if_neg h5] at e; cases e
    exact ⟨rfl, dw, g, hat, by omega, rfl⟩
  rw [if_pos h5] at e
  subst h5
  cases he : tabOf s g (idx dw a) with
  | assignedNs at_ pa => rw [he] at e; cases e; cases h4
  | _ =>
    rw [he] at e
    cases e
    exact ⟨rfl, _, g, hat, by omega, rfl⟩

theorem rttUnmap_above4 (h : InvG P s ti di rl) {rdA a : Nat} {lvl : Int} (hrd : s.st rdA = .rd)
    (hlv : lvl < 3 - ((rdOf s rdA).d0 : Int))
    (e : rttUnmapUnprotected P s rdA a lvl = some (s', ret)) : ret.status ≠ 4 := by
  unfold rttUnmapUnprotected at e
  by_cases h0 : 1 ≤ lvl ∧ lvl ≤ 3
  swap
  · rw [if_neg h0] at e; cases e; decide
  rw [if_pos h0, if_pos ((lk_iff ..).mpr ⟨h.trk _ (by rw [hrd]; simp), hrd⟩), getRd_eq h hrd] at e
  dsimp only at e
  split at e
  · split at e
    · cases e; decide
    · have : walk s (rdOf s rdA) a (dOf lvl) = none := by
        unfold walk
        rw [if_neg]
        rintro ⟨h1, _⟩
        unfold dOf at h1
        omega
      rw [this] at e; cases e
  · cases e; decide

theorem dataDestroy_top (h : InvG P s ti di rl) {rdA a : Nat}
    (e : dataDestroy P s rdA a = some (s', ret)) (h4 : ret.status = 4) :
    s' = s ∧ ∃ d g, At s ti rdA a d g ∧
      ret.x2 = skipNonLive (tabOf s g) ⟨g, d, idx d a⟩ a := by
  unfold dataDestroy at e
  by_cases h1 : lk P s rdA .rd = true
  swap
  · rw [if_neg h1] at e; cases e; cases h4
  rw [if_pos h1] at e
  rw [lk_iff] at h1
  obtain ⟨_, hrd⟩ := h1
  rw [getRd_eq h hrd] at e
  dsimp only at e
  by_cases h2 : ((rdOf s rdA).inPar a && validateMapAddr (rdOf s rdA) a 0) = true
  swap
  · rw [if_neg h2] at e; cases e; cases h4
  rw [if_pos h2] at e
  rw [Bool.and_eq_true] at h2
  obtain ⟨hlt, hal, _⟩ := (validateMapAddr_iff _ _ _).mp h2.2
  obtain ⟨g, dw, hw, hat, hge, hstop⟩ := walk_at h hrd hlt (Nat.zero_le _)
  rw [hw] at e
  dsimp only at e
  rw [getTab_eq h hat.st] at e
  dsimp only at e
  by_cases h5 : dw = 0
  swap
  · rw [if_neg h5] at e; cases e
    exact ⟨rfl, dw, g, hat, rfl⟩
  rw [if_pos h5] at e
  subst h5
  cases he : tabOf s g (idx 0 a) with
  | assigned rp pa =>
    rw [he] at e
    dsimp only at e
    split at e
    · cases e; cases h4
    · cases e
  | _ =>
    rw [he] at e
    cases e
    exact ⟨rfl, _, g, hat, rfl⟩

/-- C17: the address returned by RTT_DESTROY, on success and when it reports an RTT
error, skips unassigned entries only, and stops at the end of the table or at an entry
that is live.  On success it is past the destroyed range.  Where the walk stopped in a
level -1 table the address can lie beyond the end of the table, see
`C17_level_minus_one`. -/
theorem C17_rtt_destroy_partial (hP : PlatOk P) (hr : Reach P s) {rd a : Nat} {lvl : Int}
    (e : step P s (.rttDestroy rd a lvl) = some (s', ret)) (h0 : ret.status = 0 ∨ ret.status = 4) :
    ∃ L : Int, startLevel s rd ≤ L ∧ L < lvl ∧ Skips s' rd a L ret.x2 ∧
      (L ≠ -1 → Stops s' rd a L ret.x2) ∧
      (ret.status = 0 → L = lvl - 1 ∧ a + entrySize L ≤ ret.x2) := by
  obtain ⟨ti, di, rl, h⟩ := hr.inv hP
  rcases h0 with h0 | h0
  · obtain ⟨d, g, c, rfl, k⟩ := step_eff' hP h e rfl h0
    have h' := k.inv h
    have kp := k.ch.at_
    have hne : g ≠ c := by
      intro hc
      have h1 := kp.ti
      rw [hc, k.ch.cti] at h1
      injection h1 with _ h2 _
      omega
    have hrc : rd ≠ c := ne_of_st kp.rd k.ch.cst (by simp)
    have hrg : rd ≠ g := ne_of_st kp.rd kp.st (by simp)
    have hk : At s' ti rd a (d + 1) g := by
      apply kp.keep
      · rw [k.st]; unfold dropTableSt; dsimp only; rw [upd_ne _ _ _ hrc]; exact kp.rd
      · rw [rdOf_congr (s := s) (s' := s')]
        rw [k.st]; unfold dropTableSt; dsimp only; rw [upd_ne _ _ _ hrc, upd_ne _ _ _ hrg]
      · rw [k.st]; unfold dropTableSt; dsimp only; rw [upd_ne _ _ _ hne]; exact kp.st
    have ht : tabOf s' g = upd (tabOf s g) (idx (d + 1) a)
        (if a < (rdOf s rd).parSize then .unassigned .destroyed else .unassignedNs) := by
      apply tabOf_of_mem
      rw [k.st]; unfold dropTableSt; dsimp only; rw [upd_ne _ _ _ hne, upd_same]
    have hdd := kp.depth h
    have h4 := RdOk.d4 h kp.rd
    obtain ⟨q1, q2, q3⟩ := skip_spec h' hk (by omega)
    rw [ht, ← k.x2] at q1 q2 q3
    refine ⟨3 - ((d + 1 : Nat) : Int), by unfold startLevel; omega, by omega, q1, fun hL => q2 (by omega),
      fun _ => ⟨by omega, ?_⟩⟩
    have := q3 (by rw [upd_same]; split <;> rfl)
    rw [div_mul_of_mod k.ch.al] at this
    rw [entrySize_eq rfl]; exact this
  · obtain ⟨rfl, d, g, k, hlt, hx⟩ := rttDestroy_top h e h0
    have hdd := k.depth h
    have h4 := RdOk.d4 h k.rd
    obtain ⟨q1, q2, _⟩ := skip_spec h k (by omega)
    rw [← hx] at q1 q2
    exact ⟨3 - (d : Int), by unfold startLevel; omega, hlt, q1, fun hL => q2 (by omega),
      fun hc => by rw [h0] at hc; cases hc⟩

/-- C17 for RTT_UNMAP_UNPROTECTED. -/
theorem C17_unmap_partial (hP : PlatOk P) (hr : Reach P s) {rd a : Nat} {lvl : Int}
    (e : step P s (.rttUnmapUnprotected rd a lvl) = some (s', ret)) (h0 : ret.status = 0 ∨ ret.status = 4) :
    ∃ L : Int, startLevel s rd ≤ L ∧ L ≤ lvl ∧ Skips s' rd a L ret.x1 ∧
      (L ≠ -1 → Stops s' rd a L ret.x1) ∧
      (ret.status = 0 → L = lvl ∧ a + entrySize L ≤ ret.x1) := by
  obtain ⟨ti, di, rl, h⟩ := hr.inv hP
  rcases h0 with h0 | h0
  · obtain ⟨d, g, rfl, k⟩ := step_eff' hP h e rfl h0
    have h' := k.inv h
    have kp := k.at_
    have hrg : rd ≠ g := ne_of_st kp.rd kp.st (by simp)
    have hk : At s' ti rd a d g := by
      apply kp.keep
      · rw [k.st]; exact kp.rd
      · rw [rdOf_congr (s := s) (s' := s')]
        rw [k.st]; dsimp only; rw [upd_ne _ _ _ hrg]
      · rw [k.st]; exact kp.st
    have ht : tabOf s' g = upd (tabOf s g) (idx d a) .unassignedNs := by
      apply tabOf_of_mem
      rw [k.st]; dsimp only; rw [upd_same]
    have hdd := kp.depth h
    have h4 := RdOk.d4 h kp.rd
    have hx : ret.x1 = skipNonLive (upd (tabOf s g) (idx d a) .unassignedNs) ⟨g, d, idx d a⟩ a := by rw [k.ret]
    obtain ⟨q1, q2, q3⟩ := skip_spec h' hk (by omega)
    rw [ht, ← hx] at q1 q2 q3
    refine ⟨3 - (d : Int), by unfold startLevel; omega, by omega, q1, fun hL => q2 (by omega),
      fun _ => ⟨rfl, ?_⟩⟩
    have := q3 (by rw [upd_same]; rfl)
    rw [div_mul_of_mod k.al] at this
    rw [entrySize_eq rfl]; exact this
  · have e' : rttUnmapUnprotected P s rd a lvl = some (s', ret) := e
    by_cases hlv : s.st rd = .rd → 3 - ((rdOf s rd).d0 : Int) ≤ lvl
    · obtain ⟨rfl, d, g, k, hlt, hx⟩ := rttUnmap_top h hlv e' h0
      have hdd := k.depth h
      have h4 := RdOk.d4 h k.rd
      obtain ⟨q1, q2, _⟩ := skip_spec h k (by omega)
      rw [← hx] at q1 q2
      exact ⟨3 - (d : Int), by unfold startLevel; omega, hlt, q1, fun hL => q2 (by omega),
        fun hc => by rw [h0] at hc; cases hc⟩
    · exfalso
      have hrd : s.st rd = .rd := by
        by_contra hn; exact hlv (fun hx => absurd hx hn)
      exact rttUnmap_above4 h hrd (by by_contra hn; exact hlv (fun _ => by omega)) e' h0

/-- C17 for DATA_DESTROY. -/
theorem C17_data_destroy_partial (hP : PlatOk P) (hr : Reach P s) {rd a : Nat}
    (e : step P s (.dataDestroy rd a) = some (s', ret)) (h0 : ret.status = 0 ∨ ret.status = 4) :
    ∃ L : Int, startLevel s rd ≤ L ∧ L ≤ 3 ∧ Skips s' rd a L ret.x2 ∧
      (L ≠ -1 → Stops s' rd a L ret.x2) ∧
      (ret.status = 0 → L = 3 ∧ a + entrySize L ≤ ret.x2) := by
  obtain ⟨ti, di, rl, h⟩ := hr.inv hP
  rcases h0 with h0 | h0
  · obtain ⟨g, pa, rp, k⟩ := step_eff' hP h e rfl h0
    have h' := k.inv h
    have kp := k.at_
    have hent := kp.ent h
    rw [k.ent] at hent
    have hpa : s.st pa = .data := by
      have := (hent.2.2.2.2 0 (by simp)).1
      simpa using this
    have hrg : rd ≠ g := ne_of_st kp.rd kp.st (by simp)
    have hrp : rd ≠ pa := ne_of_st kp.rd hpa (by simp)
    have hgp : g ≠ pa := ne_of_st kp.st hpa (by simp)
    have hk : At s' ti rd a 0 g := by
      apply kp.keep
      · rw [k.st]; dsimp only; rw [upd_ne _ _ _ hrp]; exact kp.rd
      · rw [rdOf_congr (s := s) (s' := s')]
        rw [k.st]; dsimp only; rw [upd_ne _ _ _ hrp, upd_ne _ _ _ hrg]
      · rw [k.st]; dsimp only; rw [upd_ne _ _ _ hgp]; exact kp.st
    have ht : tabOf s' g = upd (tabOf s g) (idx 0 a)
        (.unassigned (if rp = .empty then .empty else .destroyed)) := by
      apply tabOf_of_mem
      rw [k.st]; dsimp only; rw [upd_ne _ _ _ hgp, upd_same]
    obtain ⟨q1, q2, q3⟩ := skip_spec h' hk (by omega)
    have hx : ret.x2 = skipNonLive (upd (tabOf s g) (idx 0 a)
        (.unassigned (if rp = .empty then .empty else .destroyed))) ⟨g, 0, idx 0 a⟩ a := by rw [k.ret]
    rw [ht, ← hx] at q1 q2 q3
    refine ⟨3 - ((0 : Nat) : Int), by unfold startLevel; omega, by omega, q1, fun hL => q2 (by omega),
      fun _ => ⟨by omega, ?_⟩⟩
    have := q3 (by rw [upd_same]; rfl)
    rw [div_mul_of_mod (show a % sz 0 = 0 by rw [show sz 0 = 4096 from rfl]; exact k.al)] at this
    rw [entrySize_eq rfl]; exact this
  · obtain ⟨rfl, d, g, k, hx⟩ := dataDestroy_top h e h0
    have hdd := k.depth h
    have h4 := RdOk.d4 h k.rd
    obtain ⟨q1, q2, _⟩ := skip_spec h k (by omega)
    rw [← hx] at q1 q2
    exact ⟨3 - (d : Int), by unfold startLevel; omega, by omega, q1, fun hL => q2 (by omega),
      fun hc => by rw [h0] at hc; cases hc⟩

end

open Demo

/-- Parameters of a realm with LPA2 and a 52 bit IPA space that starts at level -1. -/
def Demo.rparams52 (root vmid : Nat) : RealmParams :=
  { rparams root vmid with p := { (rparams root vmid).p with flags := 1, s2sz := 52, rttLevelStart := -1 } }

/-- C17 is false at level -1: the scan runs over 512 entries although the table has 16,
so the reported address, 2^57, lies far beyond the end of the table at 2^52, which is
also the end of the address space. -/
theorem C17_level_minus_one : ∃ s s' ret, Reach plat s ∧
    step plat s (.rttDestroy (G 16) 0 0) = some (s', ret) ∧ ret.status = 4 ∧
    startLevel s (G 16) = -1 ∧ ipaOf s (G 16) = 2 ^ 52 ∧ ret.x2 = 2 ^ 57 := by
  obtain ⟨s, s', ret, h1, h2, h3⟩ := Demo.ex_step
    (delegates 16 2 ++ [.realmCreate (G 16) (G 1) (rparams52 (G 17) 7)]) (.rttDestroy (G 16) 0 0)
    (fun s s' ret => ret.status == 4 && startLevel s (G 16) == -1 && ipaOf s (G 16) == 2 ^ 52 && ret.x2 == 2 ^ 57)
    (by decide +kernel)
  simp only [Bool.and_eq_true, beq_iff_eq] at h3
  exact ⟨s, s', ret, h1, h2, h3.1.1.1, h3.1.1.2, h3.1.2, h3.2⟩

/-- The answers for a data page, an unprotected page, a table and a block of unassigned memory. -/
example : ∃ s, Reach plat s ∧ ((step plat s (.rttReadEntry (G 16) 4096 3)).any (fun x => x.2.status == 0 &&
      x.2.x1 == 3 && x.2.x2 == 1 && x.2.x3 == G 23 && x.2.x4 == 1) &&
    (step plat s (.rttReadEntry (G 16) (2 ^ 32) 3)).any (fun x => x.2.status == 0 && x.2.x2 == 1 && x.2.x3 == 0x9000) &&
    (step plat s (.rttReadEntry (G 16) 0 2)).any (fun x => x.2.status == 0 && x.2.x1 == 2 && x.2.x2 == 2 && x.2.x3 == G 19) &&
    (step plat s (.rttReadEntry (G 16) (2 ^ 31) 3)).any (fun x => x.2.status == 0 && x.2.x1 == 1 && x.2.x2 == 0)) = true :=
  Demo.ex all _ (by decide +kernel)

/-- DATA_DESTROY of the first page stops at the second; after both, at the end of the table; an RTT error
in the unprotected half stops at the mapped page. -/
example : ∃ s, Reach plat s ∧ ((step plat s (.dataDestroy (G 16) 0)).any (fun x => x.2.status == 0 && x.2.x2 == 4096 &&
      (step plat x.1 (.dataDestroy (G 16) 4096)).any (fun y => y.2.status == 0 && y.2.x2 == 2 ^ 21 &&
        (step plat y.1 (.rttDestroy (G 16) 0 3)).any (fun z => z.2.status == 0 && z.2.x2 == 2 ^ 30))) &&
    (step plat s (.rttUnmapUnprotected (G 16) (2 ^ 32) 3)).any (fun x => x.2.status == 0 && x.2.x1 == 2 ^ 32 + 2 ^ 21) &&
    (step plat s (.dataDestroy (G 16) 8192)).any (fun x => x.2.status == 4 && x.2.x2 == 2 ^ 21)) = true :=
  Demo.ex all _ (by decide +kernel)

end Verif.Rmm
