import Verif.Desc.SimMem

/-!
# Simulation: what the MMU sees

The stage-2 walk of the MMU over the 64-bit words in memory, from the bits of the
Arm architecture, gives the translation of the entry-level machine.
-/

namespace Verif.Desc

open Rmm (State Plat Ret Rd GSt Walk Content Tlbi upd lk getRd getRec getTab idx sz rootFor dOf Entry InvG rdOf tabOf)
open S2tte

/-- The arithmetic output address is the bitwise one. -/
theorem hwOa_eq (lpa2 : Bool) (lsb : Nat) (w pa : W) (h1 : 12 ≤ lsb) (h2 : lsb ≤ 48)
    (h : ∀ i, pa.getLsbD i = Spec.hwOaBit lpa2 lsb w i) : hwOa lpa2 lsb w = pa.toNat := by
  have tb : ∀ i, w.toNat.testBit i = w.getLsbD i := fun i => rfl
  have hA : w.toNat / 2 ^ lsb % 2 ^ (48 - lsb) * 2 ^ lsb < 2 ^ 48 := by
    have : w.toNat / 2 ^ lsb % 2 ^ (48 - lsb) < 2 ^ (48 - lsb) := Nat.mod_lt _ (Nat.two_pow_pos _)
    have e : 2 ^ 48 = 2 ^ (48 - lsb) * 2 ^ lsb := by rw [← Nat.pow_add]; congr 1; omega
    rw [e]
    exact Nat.mul_lt_mul_of_pos_right this (Nat.two_pow_pos _)
  have hB : w.toNat / 2 ^ 48 % 4 < 2 ^ 2 := Nat.mod_lt _ (by decide)
  apply Nat.eq_of_testBit_eq
  intro i
  have hp : pa.toNat.testBit i = pa.getLsbD i := rfl
  rw [hp, h i]
  unfold hwOa Spec.hwOaBit
  cases lpa2 with
  | false =>
    simp only [Bool.false_eq_true, false_and, if_false, Nat.add_zero]
    rw [Nat.mul_comm, Nat.testBit_two_pow_mul, Nat.testBit_mod_two_pow, Nat.testBit_div_two_pow, tb]
    by_cases hi : lsb ≤ i ∧ i ≤ 47
    · rw [if_pos hi]
      have e : i - lsb + lsb = i := by omega
      have e2 : i - lsb < 48 - lsb := by omega
      simp [e, e2, hi.1]
    · rw [if_neg hi]
      by_cases h3 : lsb ≤ i
      · have : ¬ i - lsb < 48 - lsb := by omega
        simp [this]
      · simp [h3]
  | true =>
    simp only [if_true, true_and]
    have e : w.toNat / 2 ^ lsb % 2 ^ (48 - lsb) * 2 ^ lsb +
        (w.toNat / 2 ^ 48 % 4 * 2 ^ 48 + w.toNat / 2 ^ 8 % 4 * 2 ^ 50) =
        2 ^ 48 * (2 ^ 2 * (w.toNat / 2 ^ 8 % 4) + w.toNat / 2 ^ 48 % 4) +
          2 ^ lsb * (w.toNat / 2 ^ lsb % 2 ^ (48 - lsb)) := by
      generalize w.toNat / 2 ^ lsb % 2 ^ (48 - lsb) = A
      generalize w.toNat / 2 ^ 8 % 4 = B
      generalize w.toNat / 2 ^ 48 % 4 = C
      generalize 2 ^ lsb = D
      rw [Nat.mul_comm A D]
      omega
    rw [e]
    rw [Nat.mul_comm] at hA
    rw [Nat.two_pow_add_eq_or_of_lt hA, Nat.two_pow_add_eq_or_of_lt hB]
    rw [Nat.testBit_or, Nat.testBit_two_pow_mul, Nat.testBit_or, Nat.testBit_two_pow_mul, Nat.testBit_two_pow_mul,
      Nat.testBit_mod_two_pow, Nat.testBit_div_two_pow, show (4 : Nat) = 2 ^ 2 by decide, Nat.testBit_mod_two_pow,
      Nat.testBit_div_two_pow, Nat.testBit_mod_two_pow, Nat.testBit_div_two_pow, tb, tb, tb]
    by_cases hi : lsb ≤ i ∧ i ≤ 47
    · rw [if_pos hi]
      have e : i - lsb + lsb = i := by omega
      have e2 : i - lsb < 48 - lsb := by omega
      have e3 : ¬ 48 ≤ i := by omega
      simp [e, e2, e3, hi.1]
    · rw [if_neg hi]
      by_cases h3 : lsb ≤ i
      · have h4 : ¬ i - lsb < 48 - lsb := by omega
        have h5 : 48 ≤ i := by omega
        by_cases h6 : i = 48 ∨ i = 49
        · rw [if_pos h6]
          rcases h6 with rfl | rfl <;> simp [h4]
        · rw [if_neg h6]
          by_cases h7 : i = 50 ∨ i = 51
          · rw [if_pos h7]
            rcases h7 with rfl | rfl <;> simp [h4]
          · rw [if_neg h7]
            have h8 : ¬ i - 48 - 2 < 2 := by omega
            have h9 : ¬ i - 48 < 2 := by omega
            simp [h4, h8, h9]
      · have h5 : ¬ 48 ≤ i := by omega
        have h6 : ¬ (i = 48 ∨ i = 49) := by omega
        have h7 : ¬ (i = 50 ∨ i = 51) := by omega
        simp [h3, h5, h6, h7]

/-- What the MMU makes of an entry. -/
def hwOf : Entry → HwDesc
  | .assigned .ram pa => .leaf pa false
  | .assignedNs _ pa => .leaf pa true
  | .table pa => .table pa
  | _ => .invalid

theorem Enc.hw {lpa2 : Bool} {d : Nat} {e : Entry} {w : W} (h : Enc lpa2 d e w) : hwDecode lpa2 d w = hwOf e := by
  have hv := C18_hardware_view lpa2 _ _ w h.good.ok h.word
  have inv : ∀ (w : W), Spec.HwInvalid w → hwDecode lpa2 d w = .invalid := by
    intro w hi; unfold hwDecode; exact if_pos hi
  have leaf : ∀ (pa : Nat) (ns : Bool), d ≤ 2 → (BitVec.ofNat 64 pa).toNat = pa →
      Spec.HwLeaf lpa2 (3 - (d : Int)) w (BitVec.ofNat 64 pa) ns → hwDecode lpa2 d w = .leaf pa ns := by
    intro pa ns hd hn hl
    obtain ⟨b0, b1, b55, b10, hoa⟩ := hl
    rw [offBits_eq] at hoa
    have := hwOa_eq lpa2 _ w _ (by omega) (by omega) hoa
    rw [hn] at this
    unfold hwDecode
    rw [if_neg (by rw [b0]; decide)]
    by_cases h0 : d = 0
    · subst h0
      rw [if_pos rfl]
      rcases b1 with ⟨_, b1⟩ | ⟨b1, _⟩
      · rw [b1, b10, b55]; simp at this; simp [this]
      · omega
    · rw [if_neg h0]
      rcases b1 with ⟨b1, _⟩ | ⟨_, b1⟩
      · omega
      · rw [b1, b10, b55, this]; simp
  cases e with
  | unassigned r => exact inv w hv
  | unassignedNs => exact inv w hv
  | assigned r pa =>
    cases r with
    | ram => exact leaf pa false h.good.1 (h.lt rfl).2 hv
    | empty => exact inv w hv
    | destroyed => exact inv w hv
  | assignedNs at_ pa =>
    obtain ⟨h1, h2⟩ := h.good
    have hj := NsGood.join h1 h2
    refine leaf pa true h1 (h.lt rfl).2 ?_
    apply hv
    intro i
    unfold Spec.hostPaBit
    have b := congrArg (fun v => BitVec.getLsbD v i) hj.2.2.1
    simp only [getLsbD_toPa _ _ _ (show (3 - (d : Int)) ≤ 3 by omega), lsbOf_eq] at b
    exact b.symm
  | table pa =>
    obtain ⟨h3, b0, b1, hoa⟩ := hv
    have := hwOa_eq lpa2 12 w _ (by omega) (by omega) hoa
    rw [(h.lt (pa := pa) rfl).2] at this
    unfold hwDecode
    rw [if_neg (by rw [b0]; decide), if_neg (by omega), b1, this]
    simp [hwOf]

section
variable {P : Plat} {a : State} {c : CState} {lp : Nat → Bool} {dp : Nat → Nat}
variable {ti : Nat → Rmm.TabInfo} {di : Nat → Nat × Nat} {rl : Nat → List Nat}

/-- The end of the entry-level walk, as an address. -/
def outOf (x : Nat) : Option (Entry × Nat) → Option (Nat × Bool)
  | some (.assigned .ram pa, d) => some (pa + x % sz d, false)
  | some (.assignedNs _ pa, d) => some (pa + x % sz d, true)
  | _ => none

theorem hwWalk_eq (h : InvG P a ti di rl) (R : Rel a c lp dp) (l : Bool) (x : Nat) : ∀ d g, a.st g = .rtt → lp g = l →
    dp g = d → hwWalkW c l x d g = outOf x (Rmm.hwWalk a x d g) := by
  intro d
  induction d with
  | zero =>
    intro g hg h1 h2
    have k := Site.of h R hg
    rw [h1, h2] at k
    unfold hwWalkW Rmm.hwWalk
    rw [k.tw, Rmm.getTab_of_mem k.mem]
    dsimp only [Option.map_some]
    rw [(k.enc (idx 0 x) (Rmm.idx_lt _ _)).hw]
    cases tabOf a g (idx 0 x) with
    | assigned r _ => cases r <;> rfl
    | _ => rfl
  | succ d ih =>
    intro g hg h1 h2
    have k := Site.of h R hg
    rw [h1, h2] at k
    unfold hwWalkW Rmm.hwWalk
    rw [k.tw, Rmm.getTab_of_mem k.mem]
    dsimp only
    rw [(k.enc (idx (d + 1) x) (Rmm.idx_lt _ _)).hw]
    cases he : tabOf a g (idx (d + 1) x) with
    | assigned r _ => cases r <;> rfl
    | table q =>
      have hl := R.link g _ k.mem _ (Rmm.idx_lt _ _) q he
      exact ih q (child_st h k.mem (Rmm.idx_lt _ _) he) (by rw [hl.1, h1]) (by omega)
    | _ => rfl

/-- The MMU translates as the entry-level machine says. -/
theorem translate_eq (h : InvG P a ti di rl) (R : Rel a c lp dp) {rdA : Nat} (hrd : a.st rdA = .rd) (x : Nat) :
    translateW c (rdOf a rdA) x = Rmm.translate a (rdOf a rdA) x := by
  unfold translateW Rmm.translate
  by_cases hx : x < (rdOf a rdA).ipaSize
  swap
  · rw [if_neg hx, if_neg hx]
  rw [if_pos hx, if_pos hx]
  obtain ⟨g, dw, hw', _, _, _⟩ := Rmm.walk_at h hrd hx (Nat.zero_le _)
  unfold Rmm.walk at hw'
  by_cases h1 : 0 ≤ (rdOf a rdA).d0 ∧ x < (rdOf a rdA).ipaSize ∧ a.st (rdOf a rdA).root = .rtt ∧
      (rootFor (rdOf a rdA) x).1 < (rdOf a rdA).nroots ∧ a.st (rootFor (rdOf a rdA) x).2 = .rtt
  swap
  · rw [if_neg h1] at hw'; cases hw'
  have hr := R.root rdA _ (h.rds rdA hrd).mem _ h1.2.2.2.1
  rw [hwWalk_eq h R _ x _ _ h1.2.2.2.2 hr.1 hr.2]
  generalize Rmm.hwWalk a x (rdOf a rdA).d0 (rootFor (rdOf a rdA) x).2 = y
  unfold outOf
  rfl

/-- A store by the realm. -/
theorem realmWrite_sim (h : InvG P a ti di rl) (R : Rel a c lp dp) (recA x p : Nat) :
    Sim (Rmm.realmWrite a recA x p) (realmWriteW c recA x p) := by
  unfold Rmm.realmWrite realmWriteW
  have e1 : c.s.st = a.st := by rw [R.same]; rfl
  have e2 : c.s.rc = a.rc := by rw [R.same]; rfl
  have e3 : c.s.pas = a.pas := by rw [R.same]; rfl
  have e4 : getRec c.s recA = getRec a recA := by rw [R.same, getRec_strip]
  have e5 : ∀ y, getRd c.s y = getRd a y := by intro y; rw [R.same, getRd_strip]
  rw [e1, e2, e3, e4]
  by_cases h1 : a.st recA = .recd ∧ a.rc recA = 1
  swap
  · rw [if_neg h1, if_neg h1]; exact R.refl _
  rw [if_pos h1, if_pos h1, Rmm.getRec_eq h h1.1]
  dsimp only
  have hrd := (h.recs _ h1.1).rd
  rw [e5, Rmm.getRd_eq h hrd]
  dsimp only
  rw [translate_eq h R hrd]
  cases Rmm.translate a (rdOf a (Rmm.recOf a recA).rd) x with
  | none => exact R.refl _
  | some y =>
    dsimp only
    by_cases h2 : a.pas (y.1 / 4096 * 4096) = (if y.2 = true then .ns else .realm)
    · rw [if_pos h2, if_pos h2]; exact Sim.some ⟨lp, dp, R.page _ p⟩ rfl
    · rw [if_neg h2, if_neg h2]; exact R.refl _

end

end Verif.Desc
