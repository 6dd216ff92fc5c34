import Verif.Slot.Model

/-!
# Lemmas on slots: addresses, descriptors, and the invariant
-/

namespace Verif.Slot

open Verif.Xlat

theorem highBase : HIGH_BASE = 2 ^ 64 - 2 ^ 21 := by decide
theorem slotVirt : SLOT_VIRT = 2 ^ 64 - 108 * 4096 := by decide

/-- The address of a slot. -/
theorem slotToVa_ok {s : Nat} (h : s < NR_SLOTS) : slotToVa s = .ok (SLOT_VIRT + 4096 * s) := by
  unfold slotToVa
  rw [if_pos h, Nat.mod_eq_of_lt]
  rw [slotVirt]; unfold NR_SLOTS at h; omega

theorem slotToVa_inv {s va : Nat} (h : slotToVa s = .ok va) :
    s < NR_SLOTS ∧ va = SLOT_VIRT + 4096 * s := by
  by_cases hs : s < NR_SLOTS
  · rw [slotToVa_ok hs] at h; exact ⟨hs, (Except.ok.inj h).symm⟩
  · unfold slotToVa at h; rw [if_neg hs] at h; cases h

theorem ttePtr_slot {s off : Nat} (h : s < NR_SLOTS) (ho : off < 4096) :
    ttePtr (SLOT_VIRT + 4096 * s + off) = some (404 + s) := by
  unfold ttePtr
  rw [highBase, slotVirt]
  unfold NR_SLOTS at h
  have e : (2 ^ 64 - 108 * 4096 + 4096 * s + off - (2 ^ 64 - 2 ^ 21)) / 4096 = 404 + s := by omega
  rw [if_neg (by omega), e, if_pos (by omega)]

theorem ttePtr_slot0 {s : Nat} (h : s < NR_SLOTS) :
    ttePtr (SLOT_VIRT + 4096 * s) = some (404 + s) := ttePtr_slot h (off := 0) (by decide)

theorem tlbKey_slot {s off : Nat} (h : s < NR_SLOTS) (ho : off < 4096) :
    tlbKey (SLOT_VIRT + 4096 * s + off) = 2 ^ 44 - 108 + s := by
  unfold tlbKey
  rw [slotVirt]
  unfold NR_SLOTS at h
  omega

theorem tlbKey_slot0 {s : Nat} (h : s < NR_SLOTS) :
    tlbKey (SLOT_VIRT + 4096 * s) = 2 ^ 44 - 108 + s := tlbKey_slot h (off := 0) (by decide)

/-- An address that shares the cached translations of a slot and has a table entry has the
entry of the slot. -/
theorem key_entry {s va i : Nat} (hs : s < NR_SLOTS) (h : ttePtr va = some i)
    (hk : tlbKey va = 2 ^ 44 - 108 + s) : i = 404 + s := by
  unfold ttePtr at h
  rw [highBase] at h
  unfold tlbKey at hk
  unfold NR_SLOTS at hs
  split at h
  case isTrue => cases h
  case isFalse h1 =>
    split at h
    case isFalse => cases h
    case isTrue h2 =>
      have := Option.some.inj h
      omega

/-! ### Descriptors -/

theorem bit_transient (i : Nat) : TRANSIENT_DESC.getLsbD i = decide (i = 55) := by
  by_cases h : i < 64
  · have : ∀ k : Fin 64, TRANSIENT_DESC.getLsbD k = decide (k.val = 55) := by decide
    exact this ⟨i, h⟩
  · rw [BitVec.getLsbD_of_ge _ _ (by omega)]
    exact (decide_eq_false (by omega)).symm

theorem bit_mark (i : Nat) : (TRANSIENT_DESC ||| VALID_DESC).getLsbD i = decide (i = 0 ∨ i = 55) := by
  by_cases h : i < 64
  · have : ∀ k : Fin 64, (TRANSIENT_DESC ||| VALID_DESC).getLsbD k = decide (k.val = 0 ∨ k.val = 55) := by
      decide
    exact this ⟨i, h⟩
  · rw [BitVec.getLsbD_of_ge _ _ (by omega)]
    exact (decide_eq_false (by omega)).symm

/-- The software bit does not change what the descriptor means. -/
theorem mark_decode (d : BitVec 64) : Spec.decode (d ||| TRANSIENT_DESC) = Spec.decode d := by
  unfold Spec.decode
  simp only [BitVec.getLsbD_or, bit_transient]
  simp

theorem mark_outAddr (l : Bool) (d : BitVec 64) :
    Spec.outAddr l (d ||| TRANSIENT_DESC) = Spec.outAddr l d := by
  rw [← getOa_toNat, ← getOa_toNat, getOa_or]
  exact Clear.const (by cases l <;> decide)

theorem mark_type (d : BitVec 64) : (d ||| TRANSIENT_DESC).toNat % 4 = d.toNat % 4 := by
  rw [BitVec.toNat_or, show (4 : Nat) = 2 ^ 2 from rfl, Nat.or_mod_two_pow]
  have : TRANSIENT_DESC.toNat % 2 ^ 2 = 0 := by decide
  rw [this, Nat.or_zero]

theorem mark_check {d : BitVec 64} (h : d.toNat % 4 = 3) :
    (d ||| TRANSIENT_DESC) &&& (TRANSIENT_DESC ||| VALID_DESC) = TRANSIENT_DESC ||| VALID_DESC := by
  have h0 : d.getLsbD 0 = true := by
    rw [BitVec.getLsbD, Nat.testBit_zero]
    simp; omega
  apply BitVec.eq_of_getLsbD_eq
  intro i _
  rw [BitVec.getLsbD_and, bit_mark, BitVec.getLsbD_or, bit_transient]
  by_cases h1 : i = 0
  · subst h1; simp [h0]
  · by_cases h2 : i = 55 <;> simp [h1, h2]

theorem transient_check :
    TRANSIENT_DESC &&& (TRANSIENT_DESC ||| VALID_DESC) ≠ TRANSIENT_DESC ||| VALID_DESC := by decide

theorem transient_type : TRANSIENT_DESC.toNat % 4 ≠ 3 := by decide

/-- The attributes of a slot. -/
def slotAttr (s : Nat) : BitVec 64 := NG_DATA_ATTR ||| (if s = SLOT_NS then MT_NS else 0#64)

theorem slotAttr_type (s : Nat) : (slotAttr s).toNat % 16 = 2 := by
  unfold slotAttr; split <;> decide

/-- `e` is the descriptor of a slot that maps `a`. -/
structure Entry (c : Cpu) (s a : Nat) (e : BitVec 64) : Prop where
  addr : Spec.outAddr c.lpa2 e = a
  type : e.toNat % 4 = 3
  attrs : Spec.decode e = Spec.wanted (slotAttr s)
  mark : e &&& (TRANSIENT_DESC ||| VALID_DESC) = TRANSIENT_DESC ||| VALID_DESC

theorem paBound {c : Cpu} (hc : c.paWidth ≤ (if c.lpa2 then 52 else 48)) {a : Nat} (h : a ≤ maxPa c) :
    a < 2 ^ (if c.lpa2 then 52 else 48) := by
  have := Nat.pow_le_pow_right (show 0 < 2 by decide) hc
  have : 0 < 2 ^ c.paWidth := Nat.pow_pos (by decide)
  unfold maxPa at h
  omega

theorem xlatDesc_slot {c : Cpu} (s : Nat) {a : Nat} (ha : a % 4096 = 0) :
    ∃ d, xlatDesc c (slotAttr s) a 0 = .ok d := by
  have hm : mtType (slotAttr s) = MT_MEMORY := by
    unfold slotAttr
    split
    · decide
    · decide
  unfold xlatDesc
  rw [if_neg (by rw [hm]; decide), if_neg (by show ¬ a % (4096 * 512 ^ 0) ≠ 0; simp [ha]),
    if_neg (by rw [hm]; simp)]
  exact ⟨_, rfl⟩

theorem entry_of_desc {c : Cpu} (hc : c.paWidth ≤ (if c.lpa2 then 52 else 48)) {s a : Nat}
    {d : BitVec 64} (h : xlatDesc c (slotAttr s) a 0 = .ok d) (hb : a ≤ maxPa c) :
    Entry c s a (d ||| TRANSIENT_DESC) := by
  have hx := xlatDesc_decode h (by rw [slotAttr_type]; decide) (paBound hc hb)
  have ht : d.toNat % 4 = 3 := hx.2.2.1
  exact ⟨by rw [mark_outAddr]; exact hx.1, by rw [mark_type]; exact ht,
    by rw [mark_decode]; exact hx.2.2.2, mark_check ht⟩

/-! ### The operations on one CPU -/

/-- What the slots of a CPU hold. -/
def Holds (c : Cpu) (k : Core) (m : Nat → Option Nat) : Prop :=
  ∀ s, s < NR_SLOTS →
    (m s = none → k.tab (404 + s) = TRANSIENT_DESC ∧ k.tlb (2 ^ 44 - 108 + s) = none) ∧
    (∀ a, m s = some a → a % 4096 = 0 ∧ a ≤ maxPa c ∧ Entry c s a (k.tab (404 + s)) ∧
      ∀ d, k.tlb (2 ^ 44 - 108 + s) = some d → d = k.tab (404 + s))

theorem holds_fresh {c : Cpu} {k : Core} (h : Fresh k) : Holds c k (fun _ => none) := by
  intro s hs
  obtain ⟨h1, h2⟩ := h s hs
  rw [tlbKey_slot0 hs] at h2
  exact ⟨fun _ => ⟨h1, h2⟩, fun a ha => by cases ha⟩

/-- What mapping does. -/
theorem map_inv {c : Cpu} (hc : c.paWidth ≤ (if c.lpa2 then 52 else 48)) {k : Core}
    {s a : Nat} {r : Nat × Core} (h : map c k s a = .ok r) :
    s < NR_SLOTS ∧ a % 4096 = 0 ∧ a ≤ maxPa c ∧ r.1 = SLOT_VIRT + 4096 * s ∧
    k.tab (404 + s) = TRANSIENT_DESC ∧ ∃ e, Entry c s a e ∧ r.2 = setTab k (404 + s) e := by
  unfold map at h
  cases hv : slotToVa s with
  | error e => rw [hv] at h; cases h
  | ok va =>
    rw [hv] at h
    obtain ⟨hs, rfl⟩ := slotToVa_inv hv
    simp only [bind, Except.bind] at h
    split at h
    case isTrue => cases h
    case isFalse ha =>
      have ha : a % 4096 = 0 := by omega
      rw [show NG_DATA_ATTR ||| (if s = SLOT_NS then MT_NS else 0#64) = slotAttr s from rfl] at h
      unfold mapPage at h
      rw [ttePtr_slot0 hs] at h
      simp only at h
      by_cases h1 : k.tab (404 + s) = TRANSIENT_DESC
      · rw [if_neg (by simpa using h1)] at h
        by_cases h2 : maxPa c < a
        · rw [if_pos h2] at h; cases h
        · rw [if_neg h2, show a / 4096 * 4096 = a by omega] at h
          obtain ⟨d, hd⟩ := xlatDesc_slot (c := c) s ha
          rw [hd] at h
          have := (Except.ok.inj h)
          subst this
          exact ⟨hs, ha, by omega, rfl, h1, _, entry_of_desc hc hd (by omega), rfl⟩
      · rw [if_pos h1] at h; cases h

/-- Mapping a free slot works. -/
theorem map_ok {c : Cpu} {k : Core} {s a : Nat} (hs : s < NR_SLOTS)
    (ha : a % 4096 = 0) (hb : a ≤ maxPa c) (hf : k.tab (404 + s) = TRANSIENT_DESC) :
    ∃ r, map c k s a = .ok r := by
  obtain ⟨d, hd⟩ := xlatDesc_slot (c := c) s ha
  refine ⟨(SLOT_VIRT + 4096 * s, setTab k (404 + s) (d ||| TRANSIENT_DESC)), ?_⟩
  unfold map
  rw [slotToVa_ok hs]
  simp only [bind, Except.bind]
  rw [if_neg (by omega), show NG_DATA_ATTR ||| (if s = SLOT_NS then MT_NS else 0#64) = slotAttr s from rfl]
  unfold mapPage
  rw [ttePtr_slot0 hs]
  simp only
  rw [if_neg (by simpa using hf), if_neg (by omega), show a / 4096 * 4096 = a by omega, hd]
  rfl

theorem unmap_inv {k k' : Core} {s : Nat} (h : unmap k s = .ok k') :
    s < NR_SLOTS ∧
    k.tab (404 + s) &&& (TRANSIENT_DESC ||| VALID_DESC) = TRANSIENT_DESC ||| VALID_DESC ∧
    k' = { setTab k (404 + s) TRANSIENT_DESC with
      tlb := fun j => if j = 2 ^ 44 - 108 + s then none else k.tlb j } := by
  unfold unmap at h
  cases hv : slotToVa s with
  | error e => rw [hv] at h; cases h
  | ok va =>
    rw [hv] at h
    obtain ⟨hs, rfl⟩ := slotToVa_inv hv
    simp only [bind, Except.bind] at h
    unfold unmapPage at h
    rw [ttePtr_slot0 hs] at h
    simp only at h
    split at h
    case isTrue => cases h
    case isFalse hm =>
      have := Except.ok.inj h
      rw [tlbKey_slot0 hs] at this
      exact ⟨hs, by simpa using hm, this.symm⟩

theorem unmap_ok {k : Core} {s : Nat} (hs : s < NR_SLOTS)
    (h : k.tab (404 + s) &&& (TRANSIENT_DESC ||| VALID_DESC) = TRANSIENT_DESC ||| VALID_DESC) :
    unmap k s = .ok { setTab k (404 + s) TRANSIENT_DESC with
      tlb := fun j => if j = 2 ^ 44 - 108 + s then none else k.tlb j } := by
  unfold unmap
  rw [slotToVa_ok hs]
  simp only [bind, Except.bind]
  unfold unmapPage
  rw [ttePtr_slot0 hs]
  simp only
  rw [if_neg (by simpa using h), tlbKey_slot0 hs]
  rfl

theorem holds_map {c : Cpu} (hc : c.paWidth ≤ (if c.lpa2 then 52 else 48)) {k : Core}
    {m : Nat → Option Nat} (hk : Holds c k m) {s a : Nat} {r : Nat × Core}
    (h : map c k s a = .ok r) :
    m s = none ∧ Holds c r.2 (fun x => if x = s then some a else m x) := by
  obtain ⟨hs, ha, hb, _, hf, e, he, hr⟩ := map_inv hc h
  have hn : m s = none := by
    cases hm : m s with
    | none => rfl
    | some b =>
      have := ((hk s hs).2 b hm).2.2.1.mark
      rw [hf] at this
      exact absurd this transient_check
  refine ⟨hn, ?_⟩
  rw [hr]
  intro x hx
  by_cases hxs : x = s
  · subst hxs
    refine ⟨fun h => by simp at h, fun b hb' => ?_⟩
    simp only [if_true, Option.some.injEq] at hb'
    subst hb'
    refine ⟨ha, hb, ?_, ?_⟩
    · simpa [setTab] using he
    · intro d hd
      have : (setTab k (404 + x) e).tlb = k.tlb := rfl
      rw [this, ((hk x hx).1 hn).2] at hd
      cases hd
  · have ht : (setTab k (404 + s) e).tab (404 + x) = k.tab (404 + x) := by
      simp only [setTab]; rw [if_neg (by omega)]
    have hl : (setTab k (404 + s) e).tlb = k.tlb := rfl
    rw [ht, hl]
    simp only [if_neg hxs]
    exact hk x hx

theorem holds_unmap {c : Cpu} {k : Core} {m : Nat → Option Nat} (hk : Holds c k m) {s : Nat}
    {k' : Core} (h : unmap k s = .ok k') :
    (∃ a, m s = some a) ∧ Holds c k' (fun x => if x = s then none else m x) := by
  obtain ⟨hs, hm, rfl⟩ := unmap_inv h
  constructor
  · cases hms : m s with
    | none =>
      rw [((hk s hs).1 hms).1] at hm
      exact absurd hm transient_check
    | some a => exact ⟨a, rfl⟩
  · intro x hx
    by_cases hxs : x = s
    · subst hxs
      refine ⟨fun _ => ⟨by simp [setTab], by simp⟩, fun a ha => by simp at ha⟩
    · have ht : (setTab k (404 + s) TRANSIENT_DESC).tab (404 + x) = k.tab (404 + x) := by
        simp only [setTab]; rw [if_neg (by omega)]
      simp only [ht, if_neg hxs, if_neg (show ¬ 2 ^ 44 - 108 + x = 2 ^ 44 - 108 + s by omega)]
      exact hk x hx

theorem holds_fill {c : Cpu} {k : Core} {m : Nat → Option Nat} (hk : Holds c k m) (va : Nat) :
    Holds c (fill k va) m := by
  unfold fill
  cases hp : ttePtr va with
  | none => exact hk
  | some i =>
    simp only
    split
    case isFalse => exact hk
    case isTrue hv =>
      intro s hs
      by_cases hkey : 2 ^ 44 - 108 + s = tlbKey va
      · have hi : i = 404 + s := key_entry hs hp hkey.symm
        subst hi
        refine ⟨fun hn => ?_, fun a ha => ?_⟩
        · rw [((hk s hs).1 hn).1] at hv
          exact absurd hv transient_type
        · obtain ⟨h1, h2, h3, _⟩ := (hk s hs).2 a ha
          refine ⟨h1, h2, h3, fun d hd => ?_⟩
          simp only [if_pos hkey, Option.some.injEq] at hd
          exact hd.symm
      · simp only [if_neg hkey]
        exact hk s hs

theorem holds_evict {c : Cpu} {k : Core} {m : Nat → Option Nat} (hk : Holds c k m) (va : Nat) :
    Holds c (evict k va) m := by
  intro s hs
  unfold evict
  simp only
  by_cases hkey : 2 ^ 44 - 108 + s = tlbKey va
  · refine ⟨fun hn => ⟨((hk s hs).1 hn).1, by rw [if_pos hkey]⟩, fun a ha => ?_⟩
    obtain ⟨h1, h2, h3, _⟩ := (hk s hs).2 a ha
    exact ⟨h1, h2, h3, fun d hd => by rw [if_pos hkey] at hd; cases hd⟩
  · rw [if_neg hkey]; exact hk s hs

end Verif.Slot
