import Verif.Desc.Rel

/-!
# Table functions on words

What the loops of /repo/lib/s2tt/src/s2tt.c over the words of a table compute, in
terms of the entries the words stand for.
-/

namespace Verif.Desc

open Rmm (State Plat Ret Rd GSt Walk Content Tlbi upd lk getRd getRec getTab idx sz rootFor dOf Entry InvG rdOf tabOf)
open Rmm (splitEntry uniform mapsAssigned mapsNs foldEntry scan skipNonLive)
open S2tte

/-- The words `tw` are the descriptors of the entries `t`. -/
def EncT (lpa2 : Bool) (d : Nat) (t : Nat → Entry) (tw : Nat → W) : Prop :=
  ∀ i < 512, Enc lpa2 d (t i) (tw i)

theorem mapSize_eq (d : Nat) : mapSize (3 - (d : Int)) = sz d := by
  unfold mapSize; rw [lsbOf_eq, offBits_eq, Rmm.sz_eq]

theorem lvl_pred (d : Nat) : (3 - (d : Int)) - 1 = 3 - ((d + 1 : Nat) : Int) := by omega

/-- `s2tte_is_addr_lvl_aligned` of an address that fits. -/
theorem aligned_eq {lpa2 : Bool} {d pa : Nat} (hd : d ≤ 3) (hp : pa < 2 ^ Spec.paBits lpa2) :
    isAddrLvlAligned lpa2 (BitVec.ofNat 64 pa) (3 - (d : Int)) = some (decide (pa % sz d = 0)) := by
  have hl : minLevel lpa2 ≤ 3 - (d : Int) := by cases lpa2 <;> simp [minLevel] <;> omega
  have h1 := isAddrLvlAligned_iff lpa2 (BitVec.ofNat 64 pa) (3 - (d : Int)) hl (by omega)
  unfold Spec.PaOk at h1
  rw [toNat_ofNat hp, offBits_eq, ← Rmm.sz_eq] at h1
  have h2 : ∃ b, isAddrLvlAligned lpa2 (BitVec.ofNat 64 pa) (3 - (d : Int)) = some b := by
    unfold isAddrLvlAligned
    rw [if_pos ⟨by omega, hl⟩]; exact ⟨_, rfl⟩
  obtain ⟨b, hb⟩ := h2
  rw [hb] at h1 ⊢
  simp only [Option.some.injEq] at h1 ⊢
  by_cases hm : pa % sz d = 0
  · rw [h1.2 ⟨hm, hp⟩]; simp [hm]
  · simp only [hm, decide_false]
    cases b
    · rfl
    · exact absurd (h1.1 rfl).1 hm

/-! ## Initialisation -/

theorem initAssignedLoop_spec {lpa2 : Bool} {d pa : Nat} {f : Nat → Entry} {mk : W → Option W}
    (hmk : ∀ j < 512, ∃ w, mk (BitVec.ofNat 64 (pa + j * sz d)) = some w ∧ Enc lpa2 d (f j) w) :
    ∀ n i (t : Nat → W), i + n = 512 → (∀ j < i, Enc lpa2 d (f j) (t j)) →
    ∃ t', initAssignedLoopW mk (BitVec.ofNat 64 (sz d)) n i (BitVec.ofNat 64 (pa + i * sz d)) t = some t' ∧
      EncT lpa2 d f t' := by
  intro n
  induction n with
  | zero =>
    intro i t hi ht
    exact ⟨t, rfl, fun j hj => ht j (by omega)⟩
  | succ n ih =>
    intro i t hi ht
    obtain ⟨w, hw, hew⟩ := hmk i (by omega)
    unfold initAssignedLoopW
    rw [hw]
    dsimp only
    have e : BitVec.ofNat 64 (pa + i * sz d) + BitVec.ofNat 64 (sz d) = BitVec.ofNat 64 (pa + (i + 1) * sz d) := by
      rw [← BitVec.ofNat_add]; congr 1; ring
    rw [e]
    apply ih (i + 1) (upd t i w) (by omega)
    intro j hj
    unfold upd
    split
    · subst_vars; exact hew
    · exact ht j (by omega)

theorem initAssigned_spec {lpa2 : Bool} {d pa : Nat} {f : Nat → Entry} {mk : W → Option W} (old : Nat → W)
    (hd : d ≤ 2) (hal : pa % sz d = 0) (hlt : pa < 2 ^ Spec.paBits lpa2)
    (hmk : ∀ j < 512, ∃ w, mk (BitVec.ofNat 64 (pa + j * sz d)) = some w ∧ Enc lpa2 d (f j) w) :
    ∃ t', initAssignedW lpa2 mk (3 - (d : Int)) (BitVec.ofNat 64 pa) old = some t' ∧ EncT lpa2 d f t' := by
  unfold initAssignedW
  rw [if_pos ⟨by omega, by omega, by rw [aligned_eq (by omega) hlt]; simp [hal]⟩, mapSize_eq]
  have := initAssignedLoop_spec hmk 512 0 old (by omega) (by intro j hj; omega)
  simpa using this

theorem paBits_dvd {d : Nat} (lpa2 : Bool) (hd : d ≤ 3) : sz d ∣ 2 ^ Spec.paBits lpa2 := by
  rw [Rmm.sz_eq]
  apply Nat.pow_dvd_pow
  cases lpa2 <;> simp [Spec.paBits] <;> omega

/-- A block does not cross the end of the address space. -/
theorem block_lt {lpa2 : Bool} {d pa j : Nat} (hd : d ≤ 2) (hal : pa % sz (d + 1) = 0)
    (hlt : pa < 2 ^ Spec.paBits lpa2) (hj : j < 512) :
    (pa + j * sz d) % sz d = 0 ∧ pa + j * sz d < 2 ^ Spec.paBits lpa2 := by
  have h1 := Rmm.mod_sz_of_dvd (Nat.le_succ d) hal
  constructor
  · rw [Nat.add_mul_mod_self_right]; exact h1
  · obtain ⟨q, hq⟩ := paBits_dvd lpa2 (show d + 1 ≤ 3 by omega)
    obtain ⟨m, hm⟩ := Nat.dvd_of_mod_eq_zero hal
    rw [hq] at hlt ⊢
    subst hm
    have h2 : m < q := Nat.lt_of_mul_lt_mul_left hlt
    have h3 : sz (d + 1) * (m + 1) ≤ sz (d + 1) * q := Nat.mul_le_mul_left _ h2
    have h4 : j * sz d < 512 * sz d := Nat.mul_lt_mul_of_pos_right hj (Rmm.sz_pos d)
    rw [← Rmm.sz_succ] at h4
    have h5 : sz (d + 1) * (m + 1) = sz (d + 1) * m + sz (d + 1) := by ring
    omega

/-- Entries of a fresh table fit. -/
theorem splitGood {lpa2 : Bool} {d : Nat} {e : Entry} (h : Good lpa2 (d + 1) e) (hn : ∀ k, e ≠ .table k) {j : Nat}
    (hj : j < 512) : Good lpa2 d (splitEntry e d j) := by
  cases e with
  | unassigned r => trivial
  | unassignedNs => trivial
  | assigned r pa =>
    obtain ⟨h1, h2, h3⟩ := h
    have := block_lt (by omega) h2 h3 hj
    exact ⟨by omega, this.1, this.2⟩
  | assignedNs at_ pa =>
    obtain ⟨h1, h2⟩ := h
    have := block_lt (by omega) h2.al h2.lt hj
    exact ⟨by omega, this.1, this.2, h2.bits, h2.attr⟩
  | table k => exact absurd rfl (hn k)

/-- `smc_rtt_create`'s new table. -/
theorem splitW_spec {lpa2 : Bool} {d : Nat} {e : Entry} {w : W} (h : Enc lpa2 (d + 1) e w) (old : Nat → W) :
    (∃ k, e = .table k ∧ splitW lpa2 w (3 - (d : Int)) old = some (.inr ())) ∨
    ((∀ k, e ≠ .table k) ∧ ∃ nt, splitW lpa2 w (3 - (d : Int)) old =
      some (.inl (nt, if e.counted then 0 else 1, if e.counted then 512 else 0, e.valid)) ∧
      EncT lpa2 d (splitEntry e d) nt) := by
  have hue := h.ue
  have hur := h.ur
  have hud := h.ud
  have hun := h.un
  have hae := h.ae
  have har := h.ar
  have had := h.ad
  have han := h.an
  have htb := h.tb
  unfold splitW
  rw [lvl_pred, hue, hur, hud, hun, had, hae, har, han, htb]
  cases e with
  | table k => exact Or.inl ⟨k, rfl, rfl⟩
  | unassigned r =>
    refine Or.inr ⟨by simp, ?_⟩
    cases r
    · exact ⟨_, rfl, fun i _ => ⟨trivial, rfl⟩⟩
    · exact ⟨_, rfl, fun i _ => ⟨trivial, rfl⟩⟩
    · exact ⟨_, rfl, fun i _ => ⟨trivial, rfl⟩⟩
  | unassignedNs => exact Or.inr ⟨by simp, _, rfl, fun i _ => ⟨trivial, rfl⟩⟩
  | assigned r pa =>
    refine Or.inr ⟨by simp, ?_⟩
    have hg := h.good
    have hpa := h.pa (pa := pa) rfl
    have hd : d ≤ 1 := by have := hg.1; omega
    have p1 : 1 < 3 - (d : Int) := by omega
    have hi : ∀ mk : W → Option W, (∀ q, mk q = encode lpa2 (3 - (d : Int)) (.assigned r q)) →
        ∃ t', initAssignedW lpa2 mk (3 - (d : Int)) (BitVec.ofNat 64 pa) old = some t' ∧
          EncT lpa2 d (splitEntry (.assigned r pa) d) t' := by
      intro mk hmk
      apply initAssigned_spec old (by omega) (Rmm.mod_sz_of_dvd (Nat.le_succ d) hg.2.1) hg.2.2
      intro j hj
      obtain ⟨v, hv⟩ := (splitGood hg (by simp) hj).enc
      exact ⟨v, by rw [hmk]; exact hv.word, hv⟩
    cases r with
    | empty =>
      obtain ⟨t', h1, h2⟩ := hi (fun p => createAssignedEmpty lpa2 p (3 - (d : Int))) (fun _ => rfl)
      simp only [kind, reduceCtorEq, Nat.reduceEqDiff, decide_false, decide_true, Bool.false_eq_true, if_false, if_true, p1, hpa, h1]
      exact ⟨t', rfl, h2⟩
    | ram =>
      obtain ⟨t', h1, h2⟩ := hi (fun p => createAssignedRam lpa2 p (3 - (d : Int))) (fun _ => rfl)
      simp only [kind, reduceCtorEq, Nat.reduceEqDiff, decide_false, decide_true, Bool.false_eq_true, if_false, if_true, p1, hpa, h1]
      exact ⟨t', rfl, h2⟩
    | destroyed =>
      obtain ⟨t', h1, h2⟩ := hi (fun p => createAssignedDestroyed lpa2 p (3 - (d : Int))) (fun _ => rfl)
      simp only [kind, reduceCtorEq, Nat.reduceEqDiff, decide_false, decide_true, Bool.false_eq_true, if_false, if_true, p1, hpa, h1]
      exact ⟨t', rfl, h2⟩
  | assignedNs at_ pa =>
    refine Or.inr ⟨by simp, ?_⟩
    have hg := h.good
    have hpa := h.pa (pa := pa) rfl
    have hat := h.ns_attr
    have hd : d ≤ 1 := by have := hg.1; omega
    have p1 : 1 < 3 - (d : Int) := by omega
    have : ∃ t', initAssignedW lpa2 (fun p => createAssignedNs lpa2 (w &&& NS_ATTR_MASK ||| paToS2tte p lpa2) (3 - (d : Int)))
        (3 - (d : Int)) (BitVec.ofNat 64 pa) old = some t' ∧ EncT lpa2 d (splitEntry (.assignedNs at_ pa) d) t' := by
      apply initAssigned_spec old (by omega) (Rmm.mod_sz_of_dvd (Nat.le_succ d) hg.2.al) hg.2.lt
      intro j hj
      obtain ⟨v, hv⟩ := (splitGood hg (by simp) hj).enc
      exact ⟨v, by rw [hat]; exact hv.word, hv⟩
    obtain ⟨t', h1, h2⟩ := this
    simp only [kind, reduceCtorEq, Nat.reduceEqDiff, decide_false, decide_true, Bool.false_eq_true, if_false, if_true, p1, hpa, h1]
    exact ⟨t', rfl, h2⟩

/-! ## Folding -/

theorem uniformW_eq {t : Nat → Entry} {tw : Nat → W} (p : W → Bool) (e : Entry)
    (hp : ∀ i < 512, p (tw i) = decide (t i = e)) : uniformW tw p = uniform t e := by
  unfold uniformW uniform
  rw [Bool.eq_iff_iff]
  simp only [List.all_eq_true, List.mem_range]
  constructor
  · intro hh i hi; rw [← hp i hi]; exact hh i hi
  · intro hh i hi; rw [hp i hi]; exact hh i hi

theorem kind_un {e : Entry} {r : Ripas} : kind (.unassigned r) = kind e ↔ e = .unassigned r := by
  cases e with
  | unassigned r' => cases r <;> cases r' <;> simp [kind]
  | assigned r' _ => cases r <;> cases r' <;> simp [kind]
  | _ => cases r <;> simp [kind]

theorem kind_uns {e : Entry} : 6 = kind e ↔ e = .unassignedNs := by
  cases e with
  | unassigned r' => cases r' <;> simp [kind]
  | assigned r' _ => cases r' <;> simp [kind]
  | _ => simp [kind]

theorem kind_as {e : Entry} {r : Ripas} {p : Nat} : kind (.assigned r p) = kind e ↔ ∃ pa, e = .assigned r pa := by
  cases e with
  | unassigned r' => cases r <;> cases r' <;> simp [kind]
  | assigned r' _ => cases r <;> cases r' <;> simp [kind]
  | _ => cases r <;> simp [kind]

theorem kind_ns {e : Entry} : 7 = kind e ↔ ∃ a p, e = .assignedNs a p := by
  cases e with
  | unassigned r' => cases r' <;> simp [kind]
  | assigned r' _ => cases r' <;> simp [kind]
  | _ => simp [kind]

theorem kind_tab {e : Entry} : 8 = kind e ↔ ∃ p, e = .table p := by
  cases e with
  | unassigned r' => cases r' <;> simp [kind]
  | assigned r' _ => cases r' <;> simp [kind]
  | _ => simp [kind]

/-- The loop of `table_maps_block`, against the expected entries `f`. -/
theorem mapsLoop_spec {lpa2 : Bool} {d pa : Nat} {t f : Nat → Entry} {tw : Nat → W} {isx : W → Int → Bool} {ns : Bool}
    {attrs : W} (hd : d ≤ 2) (hpa : pa < 2 ^ 52)
    (h1 : ∀ i < 512, isx (tw i) (3 - (d : Int)) = true → ∃ q, s2ttePa lpa2 (tw i) (3 - (d : Int)) = some (BitVec.ofNat 64 q) ∧
      q < 2 ^ 52 ∧ (t i = f i ↔ q = pa + i * sz d ∧ (ns = true → attrs = tw i &&& NS_ATTR_MASK)))
    (h2 : ∀ i < 512, isx (tw i) (3 - (d : Int)) = false → t i ≠ f i) :
    ∀ n i, i + n = 512 → ∃ b, mapsLoopW lpa2 tw (3 - (d : Int)) isx ns (BitVec.ofNat 64 pa) attrs n i = some b ∧
      (b = true ↔ ∀ j, i ≤ j → j < 512 → t j = f j) := by
  intro n
  induction n with
  | zero =>
    intro i hi
    exact ⟨true, rfl, by simp; intro j h3 h4; omega⟩
  | succ n ih =>
    intro i hi
    unfold mapsLoopW
    rw [mapSize_eq]
    by_cases hx : isx (tw i) (3 - (d : Int)) = true
    swap
    · rw [if_neg hx]
      refine ⟨false, rfl, ?_⟩
      simp only [Bool.false_eq_true, false_iff]
      intro hall
      exact h2 i (by omega) (by simpa using hx) (hall i (by omega) (by omega))
    rw [if_pos hx]
    obtain ⟨q, hq, hq2, hiff⟩ := h1 i (by omega) hx
    rw [hq]
    dsimp only
    have hsz : sz d ≤ 2 ^ 30 := by
      rw [Rmm.sz_eq]; exact Nat.pow_le_pow_right (by omega) (by omega)
    have hle : i * sz d ≤ 512 * 2 ^ 30 := Nat.mul_le_mul (by omega) hsz
    have hne : (BitVec.ofNat 64 q ≠ BitVec.ofNat 64 pa + BitVec.ofNat 64 (i * sz d)) ↔ q ≠ pa + i * sz d := by
      rw [← BitVec.ofNat_add]
      apply not_congr
      constructor
      · intro hh
        have := congrArg BitVec.toNat hh
        rw [BitVec.toNat_ofNat, BitVec.toNat_ofNat, Nat.mod_eq_of_lt (by omega), Nat.mod_eq_of_lt (by omega)] at this
        exact this
      · intro hh; rw [hh]
    by_cases h3 : q = pa + i * sz d
    swap
    · rw [if_pos (hne.2 h3)]
      refine ⟨false, rfl, ?_⟩
      simp only [Bool.false_eq_true, false_iff]
      intro hall
      exact h3 (hiff.1 (hall i (by omega) (by omega))).1
    rw [if_neg (by rw [hne]; simpa using h3)]
    by_cases h4 : ns = true ∧ attrs ≠ tw i &&& NS_ATTR_MASK
    · rw [if_pos h4]
      refine ⟨false, rfl, ?_⟩
      simp only [Bool.false_eq_true, false_iff]
      intro hall
      exact h4.2 ((hiff.1 (hall i (by omega) (by omega))).2 h4.1)
    rw [if_neg h4]
    have hti : t i = f i := hiff.2 ⟨h3, fun hn => by by_contra hc; exact h4 ⟨hn, hc⟩⟩
    obtain ⟨b, hb, hb2⟩ := ih (i + 1) (by omega)
    refine ⟨b, hb, ?_⟩
    rw [hb2]
    constructor
    · intro hh j hj hj2
      by_cases hji : j = i
      · subst hji; exact hti
      · exact hh j (by omega) hj2
    · intro hh j hj hj2; exact hh j (by omega) hj2

/-- `table_maps_assigned_{empty,ram,destroyed}_block`. -/
theorem mapsW_assigned {lpa2 : Bool} {d : Nat} {t : Nat → Entry} {tw : Nat → W} (h : EncT lpa2 d t tw) (hd : d ≤ 3)
    (rp : Ripas) (isx : W → Int → Bool)
    (hx : ∀ i < 512, isx (tw i) (3 - (d : Int)) = decide (kind (.assigned rp 0) = kind (t i))) :
    mapsW lpa2 tw (3 - (d : Int)) isx false = some (mapsAssigned t rp d).isSome := by
  unfold mapsW
  have hmin : minLevel lpa2 ≤ 3 - (d : Int) := by cases lpa2 <;> simp [minLevel] <;> omega
  rw [if_pos ⟨hmin, by omega⟩, hx 0 (by omega)]
  by_cases h0 : kind (.assigned rp 0) = kind (t 0)
  swap
  · simp only [h0, decide_false, Bool.false_eq_true, if_false]
    unfold mapsAssigned
    split
    · rename_i r0 pa e0
      rw [if_neg]
      · rfl
      · rintro ⟨rfl, _⟩
        exact h0 (kind_as.2 ⟨pa, e0⟩)
    · rfl
  simp only [h0, decide_true, if_true]
  obtain ⟨pa, e0⟩ := kind_as.1 h0
  have k0 := h 0 (by omega)
  rw [e0] at k0
  have hp := k0.pa (pa := pa) rfl
  have hg := k0.good
  rw [hp]
  dsimp only
  rw [lvl_pred, aligned_eq (by have := hg.1; omega) hg.2.2]
  unfold mapsAssigned
  rw [e0]
  by_cases hal : pa % sz (d + 1) = 0
  swap
  · simp [hal]
  simp only [hal, decide_true, true_and]
  have hlt : pa < 2 ^ 52 := lt_of_lt_of_le hg.2.2 (pow_le64 lpa2)
  obtain ⟨b, hb, hb2⟩ := mapsLoop_spec (lpa2 := lpa2) (t := t) (tw := tw) (isx := isx) (ns := false)
    (f := fun i => .assigned rp (pa + i * sz d)) (attrs := tw 0 &&& NS_ATTR_MASK) hg.1 hlt
    (by
      intro i hi hxi
      rw [hx i hi, decide_eq_true_eq] at hxi
      obtain ⟨q, hq⟩ := kind_as.1 hxi
      have ki := h i hi
      rw [hq] at ki
      refine ⟨q, ki.pa rfl, lt_of_lt_of_le ki.good.2.2 (pow_le64 lpa2), ?_⟩
      rw [hq]; simp)
    (by
      intro i hi hxi heq
      rw [hx i hi, decide_eq_false_iff_not] at hxi
      exact hxi (kind_as.2 ⟨_, heq⟩)) 511 1 (by omega)
  rw [hb]
  apply congrArg some
  rw [Bool.eq_iff_iff, hb2]
  have e2 : ((List.range 512).all fun i => decide (t i = .assigned rp (pa + i * sz d))) = true ↔
      ∀ j, 1 ≤ j → j < 512 → t j = .assigned rp (pa + j * sz d) := by
    simp only [List.all_eq_true, List.mem_range, decide_eq_true_eq]
    constructor
    · intro hh j _ hj; exact hh j hj
    · intro hh j hj
      by_cases hj0 : j = 0
      · subst hj0; rw [e0]; simp
      · exact hh j (by omega) hj
  rw [← e2]
  generalize ((List.range 512).all _) = bb
  cases bb <;> simp

/-- `table_maps_assigned_ns_block`. -/
theorem mapsW_ns {lpa2 : Bool} {d : Nat} {t : Nat → Entry} {tw : Nat → W} (h : EncT lpa2 d t tw) (hd : d ≤ 3) :
    mapsW lpa2 tw (3 - (d : Int)) isAssignedNs true = some (mapsNs t d).isSome := by
  have hx : ∀ i < 512, isAssignedNs (tw i) (3 - (d : Int)) = decide (7 = kind (t i)) := fun i hi => (h i hi).an
  unfold mapsW
  have hmin : minLevel lpa2 ≤ 3 - (d : Int) := by cases lpa2 <;> simp [minLevel] <;> omega
  rw [if_pos ⟨hmin, by omega⟩, hx 0 (by omega)]
  by_cases h0 : 7 = kind (t 0)
  swap
  · simp only [h0, decide_false, Bool.false_eq_true, if_false]
    unfold mapsNs
    split
    · rename_i a0 pa e0
      exact absurd (kind_ns.2 ⟨a0, pa, e0⟩) h0
    · rfl
  simp only [h0, decide_true, if_true]
  obtain ⟨at0, pa, e0⟩ := kind_ns.1 h0
  have k0 := h 0 (by omega)
  rw [e0] at k0
  have hp := k0.pa (pa := pa) rfl
  have hg := k0.good
  rw [hp]
  dsimp only
  rw [lvl_pred, aligned_eq (by have := hg.1; omega) hg.2.lt]
  unfold mapsNs
  rw [e0]
  by_cases hal : pa % sz (d + 1) = 0
  swap
  · simp [hal]
  simp only [hal, decide_true, true_and]
  have hlt : pa < 2 ^ 52 := lt_of_lt_of_le hg.2.lt (pow_le64 lpa2)
  obtain ⟨b, hb, hb2⟩ := mapsLoop_spec (lpa2 := lpa2) (t := t) (tw := tw) (isx := isAssignedNs) (ns := true)
    (f := fun i => .assignedNs at0 (pa + i * sz d)) (attrs := tw 0 &&& NS_ATTR_MASK) hg.1 hlt
    (by
      intro i hi hxi
      rw [hx i hi, decide_eq_true_eq] at hxi
      obtain ⟨at1, q, hq⟩ := kind_ns.1 hxi
      have ki := h i hi
      rw [hq] at ki
      refine ⟨q, ki.pa rfl, lt_of_lt_of_le ki.good.2.lt (pow_le64 lpa2), ?_⟩
      rw [hq, k0.ns_attr, ki.ns_attr]
      simp only [Entry.assignedNs.injEq, true_implies]
      constructor
      · rintro ⟨rfl, rfl⟩; exact ⟨rfl, rfl⟩
      · rintro ⟨rfl, rfl⟩; exact ⟨rfl, rfl⟩)
    (by
      intro i hi hxi heq
      rw [hx i hi, decide_eq_false_iff_not] at hxi
      exact hxi (kind_ns.2 ⟨_, _, heq⟩)) 511 1 (by omega)
  rw [hb]
  apply congrArg some
  rw [Bool.eq_iff_iff, hb2]
  have e2 : ((List.range 512).all fun i => decide (t i = .assignedNs at0 (pa + i * sz d))) = true ↔
      ∀ j, 1 ≤ j → j < 512 → t j = .assignedNs at0 (pa + j * sz d) := by
    simp only [List.all_eq_true, List.mem_range, decide_eq_true_eq]
    constructor
    · intro hh j _ hj; exact hh j hj
    · intro hh j hj
      by_cases hj0 : j = 0
      · subst hj0; rw [e0]; simp
      · exact hh j (by omega) hj
  rw [← e2]
  generalize ((List.range 512).all _) = bb
  cases bb <;> simp

theorem mapsAssigned_data {t : Nat → Entry} {rp : Ripas} {d pa : Nat} (h : mapsAssigned t rp d = some pa) :
    t 0 = .assigned rp pa ∧ pa % sz (d + 1) = 0 := by
  unfold mapsAssigned at h
  split at h
  · rename_i r0 q e0
    split at h
    · rename_i hh
      cases h
      rw [e0, hh.1]; exact ⟨rfl, hh.2.1⟩
    · cases h
  · cases h

theorem mapsNs_data {t : Nat → Entry} {d pa : Nat} {at_ : W} (h : mapsNs t d = some (at_, pa)) :
    t 0 = .assignedNs at_ pa ∧ pa % sz (d + 1) = 0 := by
  unfold mapsNs at h
  split at h
  · rename_i r0 q e0
    split at h
    · rename_i hh
      cases h
      exact ⟨e0, hh.1⟩
    · cases h
  · cases h

/-- Outcomes of the fold agree. -/
def FoldRel (lpa2 : Bool) (d : Nat) : Option ((Entry × Nat × Nat) ⊕ Ret) → Option ((W × Nat × Nat) ⊕ Ret) → Prop
  | none, none => True
  | some (.inr x), some (.inr y) => x = y
  | some (.inl (e, p, q)), some (.inl (v, p', q')) =>
    p = p' ∧ q = q' ∧ Enc lpa2 (d + 1) e v ∧ ∀ k, e ≠ .table k
  | _, _ => False

theorem foldW_spec {lpa2 : Bool} {d : Nat} {t : Nat → Entry} {tw : Nat → W} (h : EncT lpa2 d t tw) (hd : d ≤ 3)
    (rc : Nat) : FoldRel lpa2 d (foldEntry t rc d) (foldW lpa2 tw rc (3 - (d : Int))) := by
  unfold foldEntry foldW
  rw [Rmm.dOf_sub]
  by_cases h1 : rc = 0
  · rw [if_pos h1, if_pos h1]
    rw [uniformW_eq isUnassignedDestroyed (.unassigned .destroyed)
        (fun i hi => by rw [(h i hi).ud]; exact decide_eq_decide.2 (kind_un (e := t i) (r := .destroyed))),
      uniformW_eq isUnassignedEmpty (.unassigned .empty)
        (fun i hi => by rw [(h i hi).ue]; exact decide_eq_decide.2 (kind_un (e := t i) (r := .empty))),
      uniformW_eq isUnassignedRam (.unassigned .ram)
        (fun i hi => by rw [(h i hi).ur]; exact decide_eq_decide.2 (kind_un (e := t i) (r := .ram))),
      uniformW_eq isUnassignedNs .unassignedNs
        (fun i hi => by rw [(h i hi).un]; exact decide_eq_decide.2 kind_uns)]
    generalize uniform t (.unassigned .destroyed) = b1
    generalize uniform t (.unassigned .empty) = b2
    generalize uniform t (.unassigned .ram) = b3
    generalize uniform t .unassignedNs = b4
    by_cases u1 : b1 = true
    · rw [if_pos u1, if_pos u1]; exact ⟨rfl, rfl, ⟨trivial, rfl⟩, by simp⟩
    rw [if_neg u1, if_neg u1]
    by_cases u2 : b2 = true
    · rw [if_pos u2, if_pos u2]; exact ⟨rfl, rfl, ⟨trivial, rfl⟩, by simp⟩
    rw [if_neg u2, if_neg u2]
    by_cases u3 : b3 = true
    · rw [if_pos u3, if_pos u3]; exact ⟨rfl, rfl, ⟨trivial, rfl⟩, by simp⟩
    rw [if_neg u3, if_neg u3]
    by_cases u4 : b4 = true
    · rw [if_pos u4, if_pos u4]; exact ⟨rfl, rfl, ⟨trivial, rfl⟩, by simp⟩
    rw [if_neg u4, if_neg u4, mapsW_ns h hd]
    cases hm : mapsNs t d with
    | none => rfl
    | some q =>
      obtain ⟨at_, pa⟩ := q
      dsimp only [Option.isSome_some]
      obtain ⟨e0, hal⟩ := mapsNs_data hm
      by_cases h2 : d < 2
      · have p3 : ¬ (3 - (d : Int) ≤ 1) := by omega
        rw [if_pos h2, if_neg p3]
        have k0 := h 0 (by omega)
        rw [e0] at k0
        obtain ⟨v, hv1, hv2⟩ := k0.ns_up h2 hal
        rw [lvl_pred, hv1]
        exact ⟨rfl, rfl, hv2, by simp⟩
      · rw [if_neg h2, if_pos (by omega)]; rfl
  rw [if_neg h1, if_neg h1]
  by_cases h2 : rc = 512
  swap
  · rw [if_neg h2, if_neg h2]; rfl
  rw [if_pos h2, if_pos h2]
  by_cases h3 : d < 2
  swap
  · rw [if_neg h3, if_pos (by omega)]; rfl
  have p3 : ¬ (3 - (d : Int) ≤ 1) := by omega
  rw [if_pos h3, if_neg p3]
  have k0 := h 0 (by omega)
  by_cases hlv : (t 0).live = false
  · rw [if_pos hlv, k0.pa_none hlv]; trivial
  rw [if_neg hlv]
  have hpa : ∃ p, paOf (t 0) = some p := by
    cases ht : t 0 <;> rw [ht] at hlv <;> simp [Entry.live] at hlv <;> exact ⟨_, rfl⟩
  obtain ⟨p0, hp0⟩ := hpa
  rw [k0.pa hp0]
  dsimp only
  have mk : ∀ rp pa, mapsAssigned t rp d = some pa →
      ∃ v, encode lpa2 (3 - ((d + 1 : Nat) : Int)) (.assigned rp (BitVec.ofNat 64 p0)) = some v ∧
        Enc lpa2 (d + 1) (.assigned rp pa) v := by
    intro rp pa hm
    obtain ⟨e0, hal⟩ := mapsAssigned_data hm
    rw [e0] at k0 hp0
    cases hp0
    have hg : Good lpa2 (d + 1) (.assigned rp p0) := ⟨by omega, hal, k0.good.2.2⟩
    obtain ⟨v, hv⟩ := hg.enc
    exact ⟨v, hv.word, hv⟩
  rw [lvl_pred,
    mapsW_assigned h hd .empty isAssignedEmpty (fun i hi => (h i hi).ae),
    mapsW_assigned h hd .ram isAssignedRam (fun i hi => (h i hi).ar),
    mapsW_assigned h hd .destroyed isAssignedDestroyed (fun i hi => (h i hi).ad)]
  cases m1 : mapsAssigned t .empty d with
  | some pa =>
    obtain ⟨v, hv1, hv2⟩ := mk _ _ m1
    have hv1' : createAssignedEmpty lpa2 (BitVec.ofNat 64 p0) (3 - ((d + 1 : Nat) : Int)) = some v := hv1
    dsimp only [Option.isSome_some]
    rw [hv1']
    exact ⟨rfl, rfl, hv2, by simp⟩
  | none =>
    dsimp only [Option.isSome_none]
    cases m2 : mapsAssigned t .ram d with
    | some pa =>
      obtain ⟨v, hv1, hv2⟩ := mk _ _ m2
      have hv1' : createAssignedRam lpa2 (BitVec.ofNat 64 p0) (3 - ((d + 1 : Nat) : Int)) = some v := hv1
      dsimp only [Option.isSome_some]
      rw [hv1']
      exact ⟨rfl, rfl, hv2, by simp⟩
    | none =>
      dsimp only [Option.isSome_none]
      cases m3 : mapsAssigned t .destroyed d with
      | some pa =>
        obtain ⟨v, hv1, hv2⟩ := mk _ _ m3
        have hv1' : createAssignedDestroyed lpa2 (BitVec.ofNat 64 p0) (3 - ((d + 1 : Nat) : Int)) = some v := hv1
        dsimp only [Option.isSome_some]
        rw [hv1']
        exact ⟨rfl, rfl, hv2, by simp⟩
      | none => rfl

/-! ## Skipping -/

theorem scanW_eq {lpa2 : Bool} {d : Nat} {t : Nat → Entry} {tw : Nat → W} (h : EncT lpa2 d t tw) : ∀ n i, i + n ≤ 512 →
    scanW tw (3 - (d : Int)) n i = scan t n i := by
  intro n
  induction n with
  | zero => intro i _; rfl
  | succ n ih =>
    intro i hi
    unfold scanW scan
    rw [(h i (by omega)).live, ih (i + 1) (by omega)]

theorem skipW_eq {lpa2 : Bool} {t : Nat → Entry} {tw : Nat → W} {w : Walk} (h : EncT lpa2 w.d t tw) (hi : w.i < 512)
    (a : Nat) : skipW tw w a = skipNonLive t w a := by
  unfold skipW skipNonLive
  rw [(h _ hi).live, scanW_eq h _ _ (by omega)]

theorem EncT.upd {lpa2 : Bool} {d : Nat} {t : Nat → Entry} {tw : Nat → W} (h : EncT lpa2 d t tw) (i : Nat) {e : Entry}
    {v : W} (he : Enc lpa2 d e v) : EncT lpa2 d (upd t i e) (upd tw i v) := by
  intro j hj
  unfold Rmm.upd
  split
  · exact he
  · exact h j hj

end Verif.Desc
