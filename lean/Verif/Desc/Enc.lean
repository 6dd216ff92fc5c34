import Verif.S2tte.Props
import Verif.Rmm.PropRead

/-!
# From entries to 64-bit descriptors

The machine of `Verif.Rmm` keeps stage-2 entries decoded (`Rmm.Entry`).  Here is
what a decoded entry stands for in memory: `Enc lpa2 d e w` says that the 64-bit
word `w` is the descriptor of entry `e` in a table of depth `d` (level `3 - d`) of
a realm with or without LPA2.  The rest of the file says what each helper of
/repo/lib/s2tt/src/s2tt.c answers for such a word.
-/

namespace Verif.Desc

open Rmm (Entry sz)
open S2tte

/-- The specification entry (`S2tte.Spec.Entry`) a decoded entry stands for.  An
unprotected mapping holds the host's attribute bits and its output address in the
places they have in the descriptor. -/
def spec (lpa2 : Bool) : Entry → Spec.Entry
  | .unassigned r => .unassigned r
  | .unassignedNs => .unassignedNs
  | .assigned r pa => .assigned r (BitVec.ofNat 64 pa)
  | .assignedNs at_ pa => .assignedNs (at_ ||| paToS2tte (BitVec.ofNat 64 pa) lpa2)
  | .table pa => .table (BitVec.ofNat 64 pa)

/-- An unprotected mapping that fits a descriptor at depth `d`: aligned address, host-controlled attribute bits only, not
the reserved memory attribute. -/
structure NsGood (lpa2 : Bool) (d : Nat) (at_ : W) (pa : Nat) : Prop where
  al : pa % sz d = 0
  lt : pa < 2 ^ Spec.paBits lpa2
  bits : ∀ i, at_.getLsbD i = true → (2 ≤ i ∧ i ≤ 4) ∨ (6 ≤ i ∧ i ≤ 7)
  attr : ¬ (at_.getLsbD 2 = false ∧ at_.getLsbD 3 = false ∧ at_.getLsbD 4 = true)

/-- Entries that a descriptor at depth `d` can hold. -/
def Good (lpa2 : Bool) (d : Nat) : Entry → Prop
  | .unassigned _ => True
  | .unassignedNs => True
  | .assigned _ pa => d ≤ 2 ∧ pa % sz d = 0 ∧ pa < 2 ^ Spec.paBits lpa2
  | .assignedNs at_ pa => d ≤ 2 ∧ NsGood lpa2 d at_ pa
  | .table pa => 1 ≤ d ∧ d ≤ (if lpa2 then 4 else 3) ∧ pa % 4096 = 0 ∧ pa < 2 ^ Spec.paBits lpa2

/-- `w` is the descriptor of `e` at depth `d`. -/
structure Enc (lpa2 : Bool) (d : Nat) (e : Entry) (w : W) : Prop where
  good : Good lpa2 d e
  word : encode lpa2 (3 - (d : Int)) (spec lpa2 e) = some w

theorem pow_le64 (lpa2 : Bool) : 2 ^ Spec.paBits lpa2 ≤ 2 ^ 52 := by cases lpa2 <;> decide

theorem toNat_ofNat {pa : Nat} {lpa2 : Bool} (h : pa < 2 ^ Spec.paBits lpa2) :
    (BitVec.ofNat 64 pa).toNat = pa := by
  rw [BitVec.toNat_ofNat]
  exact Nat.mod_eq_of_lt (lt_of_lt_of_le h (le_trans (pow_le64 lpa2) (by decide)))

theorem offBits_eq (d : Nat) : Spec.offBits (3 - (d : Int)) = 12 + 9 * d := by
  unfold Spec.offBits; omega

theorem paOk_of {pa d : Nat} {lpa2 : Bool} (h1 : pa % sz d = 0) (h2 : pa < 2 ^ Spec.paBits lpa2) :
    Spec.PaOk lpa2 (3 - (d : Int)) (BitVec.ofNat 64 pa) := by
  unfold Spec.PaOk
  rw [toNat_ofNat h2, offBits_eq, ← Rmm.sz_eq]
  exact ⟨h1, h2⟩

/-- A realm descriptor with the given descriptor format. -/
def rdWith (lpa2 : Bool) : Rmm.Rd :=
  { state := .new, recCount := 0, d0 := 0, ipaBits := 0, nroots := 0, root := 0, vmid := 0
    lpa2 := lpa2, numAux := 0, algo := 0, rim := [], rem := fun _ => [] }

theorem NsGood.join {lpa2 : Bool} {d pa : Nat} {at_ : W} (hd : d ≤ 2) (k : NsGood lpa2 d at_ pa) :
    Spec.HostOk lpa2 (3 - (d : Int)) (at_ ||| paToS2tte (BitVec.ofNat 64 pa) lpa2) ∧
    (at_ ||| paToS2tte (BitVec.ofNat 64 pa) lpa2) &&& NS_ATTR_MASK = at_ ∧
    toPa (at_ ||| paToS2tte (BitVec.ofNat 64 pa) lpa2) (3 - (d : Int)) lpa2 = BitVec.ofNat 64 pa ∧
    (BitVec.ofNat 64 pa).toNat = pa :=
  Rmm.hostDesc_join (r := rdWith lpa2) hd ⟨k.al, k.lt, k.bits, k.attr⟩

theorem Good.ok {lpa2 : Bool} {d : Nat} {e : Entry} (h : Good lpa2 d e) :
    (spec lpa2 e).Ok lpa2 (3 - (d : Int)) := by
  cases e with
  | unassigned r => trivial
  | unassignedNs => trivial
  | assigned r pa =>
    obtain ⟨h1, h2, h3⟩ := h
    exact ⟨by omega, by omega, paOk_of h2 h3⟩
  | assignedNs at_ pa =>
    obtain ⟨h1, h2⟩ := h
    have := (NsGood.join h1 h2).1
    exact ⟨by omega, by omega, this⟩
  | table pa =>
    obtain ⟨h1, h2, h3, h4⟩ := h
    refine ⟨?_, by omega, ?_⟩
    · cases lpa2
      · simp at h2 ⊢; omega
      · simp at h2 ⊢; omega
    · have := paOk_of (d := 0) (lpa2 := lpa2) (pa := pa) (by rw [Rmm.sz_zero]; exact h3) h4
      simpa using this

/-- Every legal entry has a descriptor. -/
theorem Good.enc {lpa2 : Bool} {d : Nat} {e : Entry} (h : Good lpa2 d e) : ∃ w, Enc lpa2 d e w := by
  obtain ⟨w, hw⟩ := encode_total _ _ _ h.ok
  exact ⟨w, h, hw⟩

/-- Kind of a decoded entry, as numbered in `recognisers`. -/
def kind : Entry → Nat
  | .unassigned .empty => 0
  | .unassigned .ram => 1
  | .unassigned .destroyed => 2
  | .assigned .empty _ => 3
  | .assigned .ram _ => 4
  | .assigned .destroyed _ => 5
  | .unassignedNs => 6
  | .assignedNs _ _ => 7
  | .table _ => 8

theorem kind_spec (lpa2 : Bool) (e : Entry) : kindIdx (spec lpa2 e) = kind e := by
  cases e with
  | unassigned r => cases r <;> rfl
  | assigned r _ => cases r <;> rfl
  | _ => rfl

section
variable {lpa2 : Bool} {d : Nat} {e : Entry} {w : W}

/-- What the nine recognisers of s2tt.c:677-797 answer. -/
theorem Enc.recog (h : Enc lpa2 d e w) :
    isUnassignedEmpty w = decide (0 = kind e) ∧ isUnassignedRam w = decide (1 = kind e) ∧
    isUnassignedDestroyed w = decide (2 = kind e) ∧
    isAssignedEmpty w (3 - (d : Int)) = decide (3 = kind e) ∧
    isAssignedRam w (3 - (d : Int)) = decide (4 = kind e) ∧
    isAssignedDestroyed w (3 - (d : Int)) = decide (5 = kind e) ∧
    isUnassignedNs w = decide (6 = kind e) ∧ isAssignedNs w (3 - (d : Int)) = decide (7 = kind e) ∧
    isTable w (3 - (d : Int)) = decide (8 = kind e) := by
  have := recog_of lpa2 _ _ w h.good.ok h.word
  rw [kind_spec] at this
  exact this

theorem Enc.ue (h : Enc lpa2 d e w) : isUnassignedEmpty w = decide (0 = kind e) := h.recog.1
theorem Enc.ur (h : Enc lpa2 d e w) : isUnassignedRam w = decide (1 = kind e) := h.recog.2.1
theorem Enc.ud (h : Enc lpa2 d e w) : isUnassignedDestroyed w = decide (2 = kind e) := h.recog.2.2.1
theorem Enc.ae (h : Enc lpa2 d e w) : isAssignedEmpty w (3 - (d : Int)) = decide (3 = kind e) :=
  h.recog.2.2.2.1
theorem Enc.ar (h : Enc lpa2 d e w) : isAssignedRam w (3 - (d : Int)) = decide (4 = kind e) :=
  h.recog.2.2.2.2.1
theorem Enc.ad (h : Enc lpa2 d e w) : isAssignedDestroyed w (3 - (d : Int)) = decide (5 = kind e) :=
  h.recog.2.2.2.2.2.1
theorem Enc.un (h : Enc lpa2 d e w) : isUnassignedNs w = decide (6 = kind e) := h.recog.2.2.2.2.2.2.1
theorem Enc.an (h : Enc lpa2 d e w) : isAssignedNs w (3 - (d : Int)) = decide (7 = kind e) :=
  h.recog.2.2.2.2.2.2.2.1
theorem Enc.tb (h : Enc lpa2 d e w) : isTable w (3 - (d : Int)) = decide (8 = kind e) :=
  h.recog.2.2.2.2.2.2.2.2

/-- `s2tte_is_live`. -/
theorem Enc.live (h : Enc lpa2 d e w) : isLive w (3 - (d : Int)) = e.live := by
  have := C18_live_iff lpa2 _ _ w h.good.ok h.word
  cases e with
  | unassigned r => simp [spec, entryPa] at this; simp [this, Entry.live]
  | unassignedNs => simp [spec, entryPa] at this; simp [this, Entry.live]
  | assigned r pa => simp [spec, entryPa] at this; simp [this, Entry.live]
  | table pa => simp [spec, entryPa] at this; simp [this, Entry.live]
  | assignedNs at_ pa =>
    rw [show (Entry.assignedNs at_ pa).live = true from rfl]
    apply this.2
    obtain ⟨h1, h2⟩ := h.good
    refine ⟨BitVec.ofNat 64 pa, ?_⟩
    have h3 := NsGood.join h1 h2
    intro i
    unfold Spec.hostPaBit
    have b := congrArg (fun v => BitVec.getLsbD v i) h3.2.2.1
    simp only [getLsbD_toPa _ _ _ (show (3 - (d : Int)) ≤ 3 by omega), lsbOf_eq] at b
    exact b.symm

/-- The address of an entry that has one. -/
def paOf : Entry → Option Nat
  | .assigned _ pa => some pa
  | .assignedNs _ pa => some pa
  | .table pa => some pa
  | _ => none

theorem Enc.lt {pa : Nat} (h : Enc lpa2 d e w) (hp : paOf e = some pa) :
    pa < 2 ^ Spec.paBits lpa2 ∧ (BitVec.ofNat 64 pa).toNat = pa := by
  have : pa < 2 ^ Spec.paBits lpa2 := by
    have hg := h.good
    cases e with
    | unassigned r => cases hp
    | unassignedNs => cases hp
    | assigned r p => cases hp; exact hg.2.2
    | assignedNs at_ p => cases hp; exact hg.2.lt
    | table p => cases hp; exact hg.2.2.2
  exact ⟨this, toNat_ofNat this⟩

/-- `s2tte_pa`. -/
theorem Enc.pa {pa : Nat} (h : Enc lpa2 d e w) (hp : paOf e = some pa) :
    s2ttePa lpa2 w (3 - (d : Int)) = some (BitVec.ofNat 64 pa) := by
  apply C18_pa_roundtrip lpa2 _ _ w _ h.good.ok h.word
  cases e with
  | unassigned r => cases hp
  | unassignedNs => cases hp
  | assigned r p => cases hp; rfl
  | table p => cases hp; rfl
  | assignedNs at_ p =>
    cases hp
    obtain ⟨h1, h2⟩ := h.good
    have h3 := NsGood.join h1 h2
    intro i
    unfold Spec.hostPaBit
    have b := congrArg (fun v => BitVec.getLsbD v i) h3.2.2.1
    simp only [getLsbD_toPa _ _ _ (show (3 - (d : Int)) ≤ 3 by omega), lsbOf_eq] at b
    exact b.symm

/-- `s2tte_pa` asserts that there is one. -/
theorem Enc.pa_none (h : Enc lpa2 d e w) (hp : e.live = false) :
    s2ttePa lpa2 w (3 - (d : Int)) = none := by
  have := h.live
  unfold isLive at this
  unfold s2ttePa
  rw [this, hp]
  simp

/-- HIPAS is UNASSIGNED. -/
def isUn : Entry → Bool
  | .unassigned _ => true
  | .unassignedNs => true
  | _ => false

/-- The entry has a RIPAS. -/
def isRp : Entry → Bool
  | .unassigned _ => true
  | .assigned _ _ => true
  | _ => false

/-- `s2tte_is_unassigned`. -/
theorem Enc.un_any (h : Enc lpa2 d e w) :
    isUnassigned w = isUn e := by
  have hd := desc_type lpa2 _ _ w h.good.ok h.word
  cases e with
  | unassigned r =>
    have := h.word
    cases r <;> (simp only [spec, encode, Option.some.injEq] at this; subst this; decide)
  | unassignedNs =>
    have := h.word
    simp only [spec, encode, Option.some.injEq] at this; subst this; decide
  | assigned r pa =>
    show _ = false
    have h3 := h.ae; have h5 := h.ad
    unfold isUnassigned hasHipas
    unfold isAssignedEmpty hasAssignedRipas hasHipas at h3
    unfold isAssignedDestroyed hasAssignedRipas hasHipas at h5
    cases r with
    | ram =>
      rw [hd]
      have : ¬ (if d = 0 then L3_PAGE else L012_BLOCK) = 0#64 := by split <;> decide
      simp [spec, descTypeOf, this]
    | empty =>
      simp [kind] at h3
      rw [h3.2.2, decide_eq_false (by decide : ¬ HIPAS_ASSIGNED = HIPAS_UNASSIGNED), Bool.and_false]
    | destroyed =>
      simp [kind] at h5
      rw [h5.2.2, decide_eq_false (by decide : ¬ HIPAS_ASSIGNED = HIPAS_UNASSIGNED), Bool.and_false]
  | assignedNs at_ pa =>
    unfold isUnassigned hasHipas
    rw [hd]
    have : ¬ (if d = 0 then L3_PAGE else L012_BLOCK) = 0#64 := by split <;> decide
    simp [spec, descTypeOf, this, isUn]
  | table pa =>
    unfold isUnassigned hasHipas
    rw [hd]
    change (decide (L012_TABLE = 0) && _) = false
    rw [decide_eq_false (by decide : ¬ L012_TABLE = 0), Bool.false_and]

/-- `entry_is_table` (s2tt.c:228-231) on a word: the level is not consulted. -/
def entryIsTable (w : W) : Bool := decide (w &&& DESC_TYPE_MASK = L012_TABLE)

theorem Enc.is_table (h : Enc lpa2 d e w) (hd : 1 ≤ d) : entryIsTable w = decide (8 = kind e) := by
  have := h.tb
  unfold isTable at this
  rw [← this]
  unfold entryIsTable
  have : (3 - (d : Int)) < 3 := by omega
  simp [this]

/-- `table_entry_to_phys` (s2tt.c:250-251) of a table descriptor. -/
theorem Enc.to_phys {c : Nat} (h : Enc lpa2 d (.table c) w) : (toPa w 3 lpa2).toNat = c := by
  have h1 := h.pa (pa := c) rfl
  have h2 := h.tb
  unfold s2ttePa at h1
  rw [h2] at h1
  simp only [kind, decide_true, if_true] at h1
  split at h1
  · rw [Option.some.inj h1]; exact (h.lt rfl).2
  · cases h1

/-- `s2tte_has_ripas`. -/
theorem Enc.has_ripas (h : Enc lpa2 d e w) :
    hasRipas w (3 - (d : Int)) = isRp e := by
  cases e with
  | unassigned r =>
    have := (C18_ripas_roundtrip lpa2 _ _ w r h.good.ok h.word (Or.inl rfl)).2
    rw [this]; rfl
  | assigned r pa =>
    have := (C18_ripas_roundtrip lpa2 _ _ w r h.good.ok h.word (Or.inr ⟨_, rfl⟩)).2
    rw [this]; rfl
  | table pa =>
    unfold hasRipas
    rw [h.tb]; simp [kind, isRp]
  | unassignedNs =>
    have := h.un
    unfold isUnassignedNs at this
    unfold hasRipas
    simp [kind] at this
    simp [this.1, isRp]
  | assignedNs at_ pa =>
    have := h.an
    unfold isAssignedNs check at this
    unfold hasRipas
    simp only [kind, decide_true] at this
    split at this
    · cases this
    · rename_i hn
      have hn' : w &&& NS = NS := by simpa using hn
      have : ¬ NS = 0#64 := by decide
      simp [hn', this, isRp]

/-- The word of an unprotected mapping. -/
theorem Enc.ns_word {at_ : W} {pa : Nat} (h : Enc lpa2 d (.assignedNs at_ pa) w) :
    Spec.HostOk lpa2 (3 - (d : Int)) (at_ ||| paToS2tte (BitVec.ofNat 64 pa) lpa2) ∧
    w = (at_ ||| paToS2tte (BitVec.ofNat 64 pa) lpa2) ||| nsAttrs lpa2 (3 - (d : Int)) := by
  obtain ⟨h1, h2⟩ := h.good
  have h3 := (NsGood.join h1 h2).1
  have := h.word
  simp only [spec, encode] at this
  rw [createAssignedNs_eq _ _ _ (by omega) (by omega) h3] at this
  exact ⟨h3, (Option.some.inj this).symm⟩

/-- `host_ns_s2tte`. -/
theorem Enc.host {at_ : W} {pa : Nat} (h : Enc lpa2 d (.assignedNs at_ pa) w) :
    hostNs lpa2 w (3 - (d : Int)) = some (at_ ||| paToS2tte (BitVec.ofNat 64 pa) lpa2) := by
  obtain ⟨h3, rfl⟩ := h.ns_word
  have := h.good.1
  exact hostNs_roundtrip _ _ _ (by omega) (by omega) h3

/-- The attribute bits of an unprotected mapping. -/
theorem Enc.ns_attr {at_ : W} {pa : Nat} (h : Enc lpa2 d (.assignedNs at_ pa) w) :
    w &&& NS_ATTR_MASK = at_ := by
  obtain ⟨_, rfl⟩ := h.ns_word
  obtain ⟨h1, h2⟩ := h.good
  have h4 := (NsGood.join h1 h2).2.1
  have e : nsAttrs lpa2 (3 - (d : Int)) &&& NS_ATTR_MASK = 0 := by
    have : d = 0 ∨ d = 1 ∨ d = 2 := by omega
    rcases this with rfl | rfl | rfl <;> cases lpa2 <;> decide
  rw [BitVec.and_or_distrib_right, e]
  simpa using h4

/-- `s2tte_create_assigned_ns` on the first entry of a table, for the entry above
(rtt.c:391-401). -/
theorem Enc.ns_up {at_ : W} {pa : Nat} (h : Enc lpa2 d (.assignedNs at_ pa) w) (hd : d < 2)
    (hal : pa % sz (d + 1) = 0) :
    ∃ v, createAssignedNs lpa2 w (3 - ((d + 1 : Nat) : Int)) = some v ∧
      Enc lpa2 (d + 1) (.assignedNs at_ pa) v := by
  obtain ⟨h3, rfl⟩ := h.ns_word
  obtain ⟨h1, h2⟩ := h.good
  have hg : Good lpa2 (d + 1) (.assignedNs at_ pa) := ⟨by omega, hal, h2.lt, h2.bits, h2.attr⟩
  obtain ⟨v, hv⟩ := hg.enc
  refine ⟨v, ?_, hv⟩
  rw [← hv.word]
  simp only [spec, encode]
  generalize (at_ ||| paToS2tte (BitVec.ofNat 64 pa) lpa2) = hh at *
  have hlow := hostOk_low _ _ _ h3 (by omega)
  have aux : ∀ (C : W) (l : Int), (l = 1 ∨ l = 2) →
      (C &&& ~~~DESC_TYPE_MASK) ||| ((if lpa2 then 0 else SH_IS) ||| (NS_ATTR_RMM ||| L012_BLOCK)) =
        (if lpa2 then 0 else SH_IS) ||| (NS_ATTR_RMM ||| L012_BLOCK) →
      createAssignedNs lpa2 (hh ||| C) l = createAssignedNs lpa2 hh l := by
    intro C l hl hC
    unfold createAssignedNs
    have p1 : 1 ≤ l ∧ l ≤ 3 := by omega
    have p2 : ¬ l = 3 := by omega
    rw [if_pos p1, if_pos p1]
    simp only [if_neg p2]
    rw [BitVec.and_or_distrib_right, hlow]
    cases lpa2
    · simp only [Bool.false_eq_true, if_false] at hC ⊢
      rw [BitVec.or_assoc, BitVec.or_assoc, hC, BitVec.or_assoc]
    · simp only [if_true] at hC ⊢
      rw [BitVec.or_assoc]
      have : ∀ x : W, 0 ||| x = x := by intro x; simp
      rw [this] at hC
      rw [hC]
  have : d = 0 ∨ d = 1 := by omega
  rcases this with rfl | rfl
  · exact aux _ _ (by omega) (by cases lpa2 <;> decide)
  · exact aux _ _ (by omega) (by cases lpa2 <;> decide)

/-- `s2tte_create_assigned_unchanged` on an unassigned word. -/
theorem Enc.unchanged {r : Ripas} {data : Nat} (h : Enc lpa2 0 (.unassigned r) w)
    (h1 : data % 4096 = 0) (h2 : data < 2 ^ Spec.paBits lpa2) :
    ∃ v, createAssignedUnchanged lpa2 w (BitVec.ofNat 64 data) 3 = some v ∧
      Enc lpa2 0 (.assigned r data) v := by
  have hg : Good lpa2 0 (.assigned r data) := ⟨by omega, by rw [Rmm.sz_zero]; exact h1, h2⟩
  obtain ⟨v, hv⟩ := hg.enc
  refine ⟨v, ?_, hv⟩
  rw [← hv.word]
  have := h.word
  cases r <;> (simp only [spec, encode, Option.some.injEq] at this; subst this; rfl)

/-- The entry made of a host descriptor (rtt.c:701). -/
theorem enc_host (r : Rmm.Rd) (hd : W) (hd2 : d ≤ 2)
    (hv : hostNsIsValid r.lpa2 hd (3 - (d : Int)) = some true) :
    ∃ v, createAssignedNs r.lpa2 hd (3 - (d : Int)) = some v ∧
      Enc r.lpa2 d (Rmm.hostEntry r hd (3 - (d : Int))) v := by
  have hk := Rmm.hostEntry_ok r hd d hd2 hv
  have hok := (C12_host_descriptor_valid_iff r.lpa2 (3 - (d : Int)) hd (by omega) (by omega)).mp hv
  have hg : Good r.lpa2 d (Rmm.hostEntry r hd (3 - (d : Int))) := ⟨hd2, hk.al, hk.lt, hk.bits, hk.attr⟩
  obtain ⟨v, hv'⟩ := hg.enc
  refine ⟨v, ?_, hv'⟩
  rw [← hv'.word]
  unfold Rmm.hostEntry
  simp only [spec, encode]
  congr 1
  rw [BitVec.ofNat_toNat, BitVec.setWidth_eq]
  apply BitVec.eq_of_getLsbD_eq
  intro i hi
  rw [BitVec.getLsbD_or, BitVec.getLsbD_and, bits_NS_ATTR_MASK]
  have hbit := hok.1 i
  unfold Spec.hostBit at hbit
  rw [offBits_eq] at hbit
  cases hl : r.lpa2
  · rw [hl] at hbit
    have e : paToS2tte (toPa hd (3 - (d : Int)) false) false = toPa hd (3 - (d : Int)) false := rfl
    rw [e, getLsbD_toPa _ _ _ (by omega), lsbOf_eq, offBits_eq]
    unfold Spec.hwOaBit
    cases hb : hd.getLsbD i <;> simp [hb] at hbit ⊢
    grind
  · rw [hl] at hbit
    rw [getLsbD_paToS2tte, getLsbD_toPa _ _ _ (by omega), getLsbD_toPa _ _ _ (by omega), lsbOf_eq, offBits_eq]
    unfold Spec.hwOaBit
    cases hb : hd.getLsbD i <;> simp [hb] at hbit ⊢ <;> grind

end

end Verif.Desc
