import Verif.Xlat.PropTable
import Verif.Slot.Lemmas

/-!
# Finding the last table and the entry of an address

xlat_tables_utils.c:284-346, 458-518: what the slot buffer uses to get at the descriptors it changes.
-/

namespace Verif.Xlat

/-- `struct xlat_llt_info`; `d` is 3 minus the level. -/
structure Llt where
  table : Nat
  d : Nat
  base : Nat
deriving DecidableEq

/-- The loop of `find_xlat_last_table` (xlat_tables_utils.c:320-339) from depth `d` on. `none`: a table
descriptor points outside the array of tables. -/
def lastTable (c : Cpu) (s : Tabs) : (d t off base : Nat) → Option Llt
  | 0, t, _, base => some ⟨t, 0, base⟩
  | d + 1, t, off, base =>
    let idx := off / bsz (d + 1) % 512
    if IsTable (s.mem t idx) then
      (s.sub c (s.mem t idx)).bind fun t' => lastTable c s d t' off (wadd base (bsz (d + 1) * idx))
    else some ⟨t, d + 1, base⟩

/-- `xlat_get_llt_from_va` (xlat_tables_utils.c:458-487) with the checks of `find_xlat_last_table`
(302-312). Pointers are not NULL and the context is initialised. -/
def getLlt (c : Cpu) (high : Bool) (vaSize : Nat) (s : Tabs) (va : Nat) : Except Err Llt :=
  if va < ctxBaseVa high vaSize then .error .efault
  else
    let off := (va - ctxBaseVa high vaSize) / 4096 * 4096
    if off ≥ vaSize then .error .efault
    else
      match lastTable c s (baseDepth vaSize) 0 off (ctxBaseVa high vaSize) with
      | some l => .ok l
      | none => .error .undef

/-- `xlat_get_tte_ptr` (xlat_tables_utils.c:498-518): the number of the entry. The cast to
`unsigned int` keeps 32 bits. -/
def ttePtr (l : Llt) (va : Nat) : Option Nat :=
  if va < l.base then none
  else
    let index := (va - l.base) / bsz l.d % 2 ^ 32
    if index < tableEntries l.d then some index else none

theorem lastTable_ok {c : Cpu} {s : Tabs} {loc : Nat → Nat × Nat} (wf : WF c s loc) {base : Nat} (off : Nat)
    (hov : base + off < 2 ^ 64) :
    ∀ d t B, t < s.next → loc t = (d, B) → B ≤ off → off < B + bsz (d + 1) →
      ∃ l B', lastTable c s d t off (base + B) = some l ∧ l.table < s.next ∧ loc l.table = (l.d, B') ∧ l.d ≤ d ∧
        l.base = base + B' ∧ B ≤ B' ∧ B' ≤ off ∧ off < B' + bsz (l.d + 1) ∧ B' + bsz (l.d + 1) ≤ B + bsz (d + 1) ∧
        look c s d t off = (s.mem l.table (off / bsz l.d % 512), l.d) ∧
        ∀ o, B' ≤ o → o < B' + bsz (l.d + 1) → look c s d t o = look c s l.d l.table o := by
  intro d
  induction d with
  | zero =>
    intro t B ht hl h1 h2
    exact ⟨⟨t, 0, base + B⟩, B, rfl, ht, hl, Nat.le_refl _, rfl, Nat.le_refl _, h1, h2, Nat.le_refl _, rfl, fun _ _ _ => rfl⟩
  | succ d ih =>
    intro t B ht hl h1 h2
    have hal : bsz (d + 1 + 1) ∣ B := by have := wf.align t ht; rw [hl] at this; exact this
    have hs : bsz (d + 1 + 1) = 512 * bsz (d + 1) := bsz_succ (d + 1)
    have hb := bsz_pos (d + 1)
    have hi : off / bsz (d + 1) % 512 < 512 := Nat.mod_lt _ (by decide)
    -- the block that contains the offset
    have hblk : B + off / bsz (d + 1) % 512 * bsz (d + 1) ≤ off ∧
        off < B + off / bsz (d + 1) % 512 * bsz (d + 1) + bsz (d + 1) := by
      obtain ⟨k, hk⟩ := hal
      have hq : off / bsz (d + 1) = 512 * k + (off - B) / bsz (d + 1) := by
        have : off = (off - B) + bsz (d + 1) * (512 * k) := by
          rw [hs] at hk
          have : bsz (d + 1) * (512 * k) = 512 * bsz (d + 1) * k := by ring
          omega
        conv => lhs; rw [this]
        rw [Nat.add_mul_div_left _ _ hb]
        omega
      have hlt : (off - B) / bsz (d + 1) < 512 := by
        apply Nat.div_lt_of_lt_mul
        rw [Nat.mul_comm]; omega
      have hm : off / bsz (d + 1) % 512 = (off - B) / bsz (d + 1) := by
        rw [hq, Nat.mul_add_mod, Nat.mod_eq_of_lt hlt]
      rw [hm]
      have h3 := Nat.div_mul_le_self (off - B) (bsz (d + 1))
      have h4 := Nat.lt_div_mul_add hb (a := off - B)
      omega
    by_cases hT : IsTable (s.mem t (off / bsz (d + 1) % 512))
    · obtain ⟨t', e1, e2, e3⟩ := wf.child t _ d ht hi (by rw [hl]) hT
      rw [hl] at e3
      obtain ⟨l, B', g1, g2, g3, g4, g5, g6, g7, g8, g9, g10, g11⟩ := ih t' _ e2 e3 hblk.1 hblk.2
      have htop : off / bsz (d + 1) % 512 * bsz (d + 1) + bsz (d + 1) ≤ bsz (d + 1 + 1) := by
        rw [hs]
        calc off / bsz (d + 1) % 512 * bsz (d + 1) + bsz (d + 1) = (off / bsz (d + 1) % 512 + 1) * bsz (d + 1) := by ring
          _ ≤ 512 * bsz (d + 1) := Nat.mul_le_mul_right _ hi
      refine ⟨l, B', ?_, g2, g3, by omega, g5, by omega, g7, g8, ?_, ?_, ?_⟩
      · unfold lastTable
        simp only
        rw [if_pos hT, e1, Option.bind_some]
        have : wadd (base + B) (bsz (d + 1) * (off / bsz (d + 1) % 512)) = base + (B + off / bsz (d + 1) % 512 * bsz (d + 1)) := by
          unfold wadd
          rw [Nat.mul_comm (bsz (d + 1)), Nat.mod_eq_of_lt (by omega)]
          omega
        rw [this]
        exact g1
      · omega
      · unfold look
        rw [if_pos hT, e1]
        exact g10
      · intro o h5 h6
        have hidx : o / bsz (d + 1) % 512 = off / bsz (d + 1) % 512 :=
          index_of (B := B) (by rw [← hs]; exact hal) hi (by omega) (by omega)
        conv => lhs; unfold look
        rw [hidx, if_pos hT, e1]
        exact g11 o h5 h6
    · refine ⟨⟨t, d + 1, base + B⟩, B, ?_, ht, hl, Nat.le_refl _, rfl, Nat.le_refl _, h1, h2, Nat.le_refl _, ?_, fun _ _ _ => rfl⟩
      · unfold lastTable
        simp only
        rw [if_neg hT]
      · unfold look
        rw [if_neg hT]

theorem look_page (c : Cpu) (s : Tabs) (off : Nat) : ∀ d t, look c s d t (off / 4096 * 4096) = look c s d t off := by
  have hd : ∀ d, off / 4096 * 4096 / bsz d = off / bsz d := by
    intro d
    obtain ⟨k, hk⟩ := page_dvd_bsz d
    rw [hk, ← Nat.div_div_eq_div_mul, ← Nat.div_div_eq_div_mul, Nat.mul_div_cancel _ (by decide)]
  intro d
  induction d with
  | zero => intro t; unfold look; rw [hd]
  | succ d ih =>
    intro t
    unfold look
    rw [hd]
    split
    · split
      · exact ih _
      · rfl
    · rfl

theorem index_in {d B o : Nat} (hal : bsz (d + 1) ∣ B) (h1 : B ≤ o) (h2 : o < B + bsz (d + 1)) :
    (o - B) / bsz d = o / bsz d % 512 ∧ (o - B) / bsz d < 512 := by
  have hb := bsz_pos d
  have hs := bsz_succ d
  have hlt : (o - B) / bsz d < 512 := by
    apply Nat.div_lt_of_lt_mul
    rw [Nat.mul_comm]; omega
  refine ⟨?_, hlt⟩
  refine (index_of (b := bsz d) (B := B) (by rw [← hs]; exact hal) hlt ?_ ?_).symm
  · have := Nat.div_mul_le_self (o - B) (bsz d); omega
  · have := Nat.lt_div_mul_add hb (a := o - B); omega

theorem base_top (high : Bool) {vaSize : Nat} (h : vaSize ≤ 2 ^ 52) (h0 : 0 < vaSize) :
    ctxBaseVa high vaSize + vaSize ≤ 2 ^ 64 := by
  unfold ctxBaseVa wadd wsub
  cases high
  · simp only [Bool.false_eq_true, if_false]; omega
  · simp only [if_true]; omega

theorem span_le {vaSize : Nat} (hv : vaSize ≤ 2 ^ 52) : vaSize ≤ bsz (baseDepth vaSize + 1) ∧ baseDepth vaSize ≤ 4 := by
  have b5 : bsz 5 = 2 ^ 57 := by decide
  unfold baseDepth
  by_cases h4 : vaSize > bsz 4
  · rw [if_pos h4, b5]; exact ⟨by omega, by decide⟩
  rw [if_neg h4]
  by_cases h3 : vaSize > bsz 3
  · rw [if_pos h3]; exact ⟨show vaSize ≤ bsz 4 by omega, by decide⟩
  rw [if_neg h3]
  by_cases h2 : vaSize > bsz 2
  · rw [if_pos h2]; exact ⟨show vaSize ≤ bsz 3 by omega, by decide⟩
  rw [if_neg h2]
  by_cases h1 : vaSize > bsz 1
  · rw [if_pos h1]; exact ⟨show vaSize ≤ bsz 2 by omega, by decide⟩
  rw [if_neg h1]; exact ⟨show vaSize ≤ bsz 1 by omega, by decide⟩

/-- **C46.** `xlat_get_llt_from_va` finds a table exactly for the addresses of the context. The entry
that `xlat_get_tte_ptr` then gives for the address is the one that decides how it is translated; if the
table is at level 3, the same holds for all other addresses of the table. -/
theorem C46_llt {c : Cpu} {high : Bool} {mms : List Region} {vaSize addr num : Nat}
    {old : Nat → Nat → BitVec 64} {s : Tabs}
    (hpa : c.paWidth ≤ (if c.lpa2 then 52 else 48)) (hw : ∀ r, r ∈ mms → Word r)
    (hty : ∀ r, r ∈ mms → Spec.Supported r) (hfit : addr + 4096 * num ≤ 2 ^ 48)
    (hs : setup c high mms vaSize addr num old = .ok s) (hpg : vaSize % 4096 = 0) (va : Nat) :
    (va < ctxBaseVa high vaSize ∨ ctxBaseVa high vaSize + vaSize ≤ va → getLlt c high vaSize s va = .error .efault) ∧
    (ctxBaseVa high vaSize ≤ va → va < ctxBaseVa high vaSize + vaSize →
      ∃ l, getLlt c high vaSize s va = .ok l ∧ l.table < s.num ∧ l.base ≤ va ∧ va < l.base + bsz (l.d + 1) ∧
        (∃ i, ttePtr l va = some i ∧
          look c s (baseDepth vaSize) 0 (va - ctxBaseVa high vaSize) = (s.mem l.table i, l.d)) ∧
        (l.d = 0 → ∀ o, l.base ≤ o → o < l.base + bsz 1 →
          ∃ i, ttePtr l o = some i ∧ i < 512 ∧ look c s (baseDepth vaSize) 0 (o - ctxBaseVa high vaSize) = (s.mem l.table i, 0))) := by
  rcases setup_built (vaSize := vaSize) (high := high) (old := old) hpa hw hty hfit with
    ⟨e, he, _⟩ | ⟨s', hs', hB, _, hnum, _, _, _, hmax, hmin⟩
  · rw [he] at hs; cases hs
  rw [hs] at hs'
  obtain rfl := Except.ok.inj hs'
  obtain ⟨loc, wf, h0, hl0, _⟩ := hB
  have hv : vaSize ≤ 2 ^ 52 := by
    refine Nat.le_trans hmax ?_
    split <;> decide
  have htop := base_top high hv (by omega)
  obtain ⟨hspan, hD⟩ := span_le hv
  have hroom := wf.room
  generalize hb : ctxBaseVa high vaSize = base at *
  constructor
  · intro h
    unfold getLlt
    rw [hb]
    by_cases h1 : va < base
    · rw [if_pos h1]
    · rw [if_neg h1]
      simp only
      rw [if_pos (by omega)]
  · intro h1 h2
    have hoff : (va - base) / 4096 * 4096 < vaSize := by omega
    obtain ⟨l, B', g1, g2, g3, g4, g5, g6, g7, g8, g9, g10, g11⟩ :=
      lastTable_ok wf (base := base) ((va - base) / 4096 * 4096) (by omega) (baseDepth vaSize) 0 0 h0 hl0 (Nat.zero_le _) (by omega)
    have hal : bsz (l.d + 1) ∣ B' := by have := wf.align _ g2; rw [g3] at this; exact this
    have hr : va - base < B' + bsz (l.d + 1) := by
      obtain ⟨k, hk⟩ := hal
      obtain ⟨m, hm⟩ := page_dvd_bsz (l.d + 1)
      have e1 : B' = 4096 * (m * k) := by rw [hk, hm]; ring
      omega
    have hi := index_in hal (show B' ≤ va - base by omega) hr
    have hent : (va - base - B') / bsz l.d < tableEntries l.d := by
      unfold tableEntries TABLE_ENTRIES
      split
      · rename_i h4
        rw [h4]
        have : bsz 4 = 2 ^ 48 := by decide
        rw [this]
        omega
      · exact hi.2
    have hsub : va - l.base = va - base - B' := by omega
    refine ⟨l, ?_, by omega, by omega, by omega, ⟨(va - base - B') / bsz l.d, ?_, ?_⟩, ?_⟩
    · unfold getLlt
      rw [hb, if_neg (by omega)]
      simp only
      rw [if_neg (by omega), show lastTable c s (baseDepth vaSize) 0 ((va - base) / 4096 * 4096) base = some l from g1]
    · unfold ttePtr
      rw [if_neg (by omega), hsub]
      simp only
      rw [Nat.mod_eq_of_lt (by omega), if_pos hent]
    · rw [← look_page, g10, hi.1]
      obtain ⟨k, hk⟩ := page_dvd_bsz l.d
      rw [hk, ← Nat.div_div_eq_div_mul, ← Nat.div_div_eq_div_mul, Nat.mul_div_cancel _ (by decide)]
    · intro hd o h3 h4
      rw [hd] at hal g11 g8
      have e1 : bsz (0 + 1) = bsz 1 := rfl
      rw [e1] at hal g11 g8
      have hio := index_in (d := 0) (o := o - base) hal (by omega) (by rw [e1]; omega)
      refine ⟨(o - base - B') / bsz 0, ?_, hio.2, ?_⟩
      · unfold ttePtr
        rw [if_neg (by omega), hd, show o - l.base = o - base - B' by omega]
        simp only
        rw [Nat.mod_eq_of_lt (by omega), if_pos (by unfold tableEntries TABLE_ENTRIES; simp only [show (0 : Nat) ≠ 4 by decide, if_false]; exact hio.2)]
      · rw [g11 (o - base) (by omega) (by omega)]
        unfold look
        rw [hio.1]

/-- **C46.** `xlat_get_tte_ptr` gives NULL for addresses outside the table, unless they are 2^44 bytes or
more above it (for level 3). -/
theorem C46_tte_range (l : Llt) (va : Nat) (i : Nat) (hlt : va - l.base < 2 ^ 32 * bsz l.d) (h : ttePtr l va = some i) :
    l.base ≤ va ∧ i < tableEntries l.d ∧ i = (va - l.base) / bsz l.d ∧ va < l.base + tableEntries l.d * bsz l.d := by
  unfold ttePtr at h
  split at h
  · cases h
  · simp only at h
    have hb := bsz_pos l.d
    rw [Nat.mod_eq_of_lt (Nat.div_lt_of_lt_mul (by rw [Nat.mul_comm]; exact hlt))] at h
    split at h
    · rename_i h1 h2
      cases h
      refine ⟨by omega, h2, rfl, ?_⟩
      have := (Nat.div_lt_iff_lt_mul hb).1 h2
      omega
    · cases h

/-- The index is cut to 32 bits: 16 TB above the table, its first entry comes again, against the comment
at xlat_tables_utils.c:491. -/
theorem C46_tte_wrap : ttePtr ⟨0, 0, 0x10000000⟩ (0x10000000 + 2 ^ 44) = some 0 := by decide

/-- **C47.** What slot_buf_finish_warmboot_init (buffer.c:61-80) keeps for the address of the first slot is the only table
of the high region, and xlat_get_tte_ptr on it is the function of the slot model. -/
theorem C47_llt (c : Cpu) (s : Tabs) (n : Nat) (hn : n < Slot.NR_SLOTS) :
    getLlt c true (512 * 4096) s (Slot.SLOT_VIRT + 4096 * n) = .ok ⟨0, 0, Slot.HIGH_BASE⟩ ∧
    ∀ va, va < 2 ^ 64 → ttePtr ⟨0, 0, Slot.HIGH_BASE⟩ va = Slot.ttePtr va := by
  have hb : ctxBaseVa true (512 * 4096) = 2 ^ 64 - 2 ^ 21 := Slot.highBase
  have hd : baseDepth (512 * 4096) = 0 := by decide
  constructor
  · unfold getLlt
    rw [hb, Slot.slotVirt, hd]
    unfold Slot.NR_SLOTS at hn
    rw [if_neg (by omega)]
    simp only
    rw [if_neg (by omega)]
    unfold lastTable
    simp only [Slot.highBase]
  · intro va hva
    unfold ttePtr Slot.ttePtr
    rw [Slot.highBase]
    have h1 : bsz 0 = 4096 := by decide
    have h2 : tableEntries 0 = 512 := by decide
    simp only [h1, h2]
    split
    · rfl
    · rw [Nat.mod_eq_of_lt (by omega)]

/-- Code, a block and reserved pages of `demoMap`: the table is at level 3, 2 and 3. -/
example : (demoTabs.toOption.map fun s =>
    [0x11234, 0x234567, 0x400000, 0x40000000].map fun va => (getLlt demoCpu false (2 ^ 30) s va).toOption.map fun l => (l.d, l.base, ttePtr l va)) =
    some [some (0, 0, some 17), some (1, 0, some 1), some (0, 0x400000, some 0), none] := by decide +kernel

end Verif.Xlat
