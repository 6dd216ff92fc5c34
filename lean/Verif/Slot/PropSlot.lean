import Verif.Slot.Lemmas

/-!
# C47: the slots of a CPU
-/

namespace Verif.Slot

open Verif.Xlat

/-- What slot `s` of CPU `i` holds after a history, most recent operation first: the address
of the last `map`, unless there was an `unmap` since.  This mentions no table and no TLB. -/
def content (i s : Nat) : List Op → Option Nat
  | [] => none
  | .map j t a :: l => if j = i ∧ t = s then some a else content i s l
  | .unmap j t :: l => if j = i ∧ t = s then none else content i s l
  | .fill _ _ :: l => content i s l
  | .evict _ _ :: l => content i s l

/-- All CPUs hold what their histories say. -/
def Inv (c : Cpu) (σ : Nat → Core) (h : List Op) : Prop :=
  ∀ i, Holds c (σ i) (fun s => content i s h)

theorem inv_step {c : Cpu} (hc : c.paWidth ≤ (if c.lpa2 then 52 else 48)) {σ σ' : Nat → Core}
    {h : List Op} (hi : Inv c σ h) {o : Op} (hs : step c σ o = .ok σ') : Inv c σ' (o :: h) := by
  cases o with
  | map j t a =>
    simp only [step] at hs
    cases hm : map c (σ j) t a with
    | error e => rw [hm] at hs; cases hs
    | ok r =>
      rw [hm] at hs
      obtain rfl := Except.ok.inj hs
      intro i
      by_cases hij : i = j
      · subst hij
        have := (holds_map hc (hi i) hm).2
        simp only [setCore, if_true]
        refine cast ?_ this
        congr 1; funext x
        simp only [content]
        by_cases hx : x = t
        · simp [hx]
        · simp [hx, Ne.symm hx]
      · have := hi i
        simp only [setCore, if_neg hij]
        refine cast ?_ this
        congr 1; funext x
        simp [content, Ne.symm hij]
  | unmap j t =>
    simp only [step] at hs
    cases hm : unmap (σ j) t with
    | error e => rw [hm] at hs; cases hs
    | ok k =>
      rw [hm] at hs
      obtain rfl := Except.ok.inj hs
      intro i
      by_cases hij : i = j
      · subst hij
        have := (holds_unmap (hi i) hm).2
        simp only [setCore, if_true]
        refine cast ?_ this
        congr 1; funext x
        simp only [content]
        by_cases hx : x = t
        · simp [hx]
        · simp [hx, Ne.symm hx]
      · have := hi i
        simp only [setCore, if_neg hij]
        refine cast ?_ this
        congr 1; funext x
        simp [content, Ne.symm hij]
  | fill j va =>
    obtain rfl := Except.ok.inj hs
    intro i
    by_cases hij : i = j
    · subst hij
      simp only [setCore, if_true]
      exact holds_fill (hi i) va
    · simp only [setCore, if_neg hij]
      exact hi i
  | evict j va =>
    obtain rfl := Except.ok.inj hs
    intro i
    by_cases hij : i = j
    · subst hij
      simp only [setCore, if_true]
      exact holds_evict (hi i) va
    · simp only [setCore, if_neg hij]
      exact hi i

theorem inv_run {c : Cpu} (hc : c.paWidth ≤ (if c.lpa2 then 52 else 48)) :
    ∀ (l : List Op) (σ σ' : Nat → Core) (h : List Op), Inv c σ h → run c σ l = .ok σ' →
      Inv c σ' (l.reverse ++ h) := by
  intro l
  induction l with
  | nil => intro σ σ' h hi hr; obtain rfl := Except.ok.inj hr; exact hi
  | cons o l ih =>
    intro σ σ' h hi hr
    unfold run at hr
    cases hs : step c σ o with
    | error e => rw [hs] at hr; cases hr
    | ok σ1 =>
      rw [hs] at hr
      have := ih σ1 σ' (o :: h) (inv_step hc hi hs) hr
      simpa using this

/-- The translations a CPU may use for a slot. -/
theorem holds_view {c : Cpu} {k : Core} {m : Nat → Option Nat} (hk : Holds c k m) {s off : Nat}
    (hs : s < 108) (ho : off < 4096) {d : BitVec 64}
    (hd : Uses k (2 ^ 64 - 108 * 4096 + 4096 * s + off) d) :
    m s = some (Spec.outAddr c.lpa2 d) ∧ Spec.decode d = Spec.wanted (slotAttr s) := by
  have hI := hk s hs
  rw [← slotVirt] at hd
  cases hm : m s with
  | none =>
    obtain ⟨h1, h2⟩ := hI.1 hm
    rcases hd with hd | ⟨j, hj, hjd, hjv⟩
    · rw [tlbKey_slot hs ho, h2] at hd; cases hd
    · rw [ttePtr_slot hs ho] at hj
      obtain rfl := Option.some.inj hj
      rw [← hjd, h1] at hjv
      exact absurd hjv transient_type
  | some a =>
    obtain ⟨_, _, h3, h4⟩ := hI.2 a hm
    have : d = k.tab (404 + s) := by
      rcases hd with hd | ⟨j, hj, hjd, hjv⟩
      · rw [tlbKey_slot hs ho] at hd
        exact h4 d hd
      · rw [ttePtr_slot hs ho] at hj
        obtain rfl := Option.some.inj hj
        exact hjd.symm
    rw [this, h3.addr, h3.attrs]
    exact ⟨rfl, rfl⟩

/-- C47: after every history of mapping and unmapping on any number of CPUs, with any
caching of translations, an access of CPU `i` in slot `s` goes to the granule that CPU `i`
itself mapped there and has not unmapped, at the offset in the page, with read-write
non-executable privileged attributes, as a Non-secure access exactly for the slot of
Non-secure memory; if there is no such granule no translation exists, not even a cached
one. -/
theorem C47_slot_view (c : Cpu) (hc : c.paWidth ≤ (if c.lpa2 then 52 else 48))
    (σ σ' : Nat → Core) (h0 : ∀ i, Fresh (σ i)) (l : List Op) (hr : run c σ l = .ok σ')
    (i s off : Nat) (hs : s < 108) (ho : off < 4096) :
    (∀ d, Uses (σ' i) (2 ^ 64 - 108 * 4096 + 4096 * s + off) d →
      content i s l.reverse = some (Spec.outAddr c.lpa2 d) ∧
      Spec.decode d =
        { nonSecure := decide (s = 0), unprivAccess := false, readOnly := false, accessed := true,
          notGlobal := true, guarded := false, privNoExec := true, unprivNoExec := true,
          memIndex := 0 }) ∧
    (∀ a, content i s l.reverse = some a →
      ∃ d, Uses (σ' i) (2 ^ 64 - 108 * 4096 + 4096 * s + off) d) := by
  have hI := inv_run hc l σ σ' [] (fun i => holds_fresh (h0 i)) hr i
  rw [List.append_nil] at hI
  have hw : Spec.wanted (slotAttr s) =
      { nonSecure := decide (s = 0), unprivAccess := false, readOnly := false, accessed := true,
        notGlobal := true, guarded := false, privNoExec := true, unprivNoExec := true,
        memIndex := 0 } := by
    unfold slotAttr
    by_cases h : s = 0
    · subst h; decide
    · rw [if_neg (show ¬ s = SLOT_NS from h), decide_eq_false h]; decide
  constructor
  · intro d hd
    rw [← hw]
    exact holds_view hI hs ho hd
  · intro a ha
    obtain ⟨_, _, h3, _⟩ := (hI s hs).2 a ha
    rw [← slotVirt]
    exact ⟨_, Or.inr ⟨_, ttePtr_slot hs ho, rfl, h3.type⟩⟩

/-- C47: what one CPU does never changes what another one has, in its table or cached. -/
theorem C47_private (c : Cpu) (l : List Op) (i : Nat)
    (hl : ∀ o ∈ l, (∀ s a, o ≠ .map i s a) ∧ (∀ s, o ≠ .unmap i s) ∧ (∀ va, o ≠ .fill i va) ∧
      (∀ va, o ≠ .evict i va)) :
    ∀ σ σ', run c σ l = .ok σ' → σ' i = σ i := by
  induction l with
  | nil => intro σ σ' hr; obtain rfl := Except.ok.inj hr; rfl
  | cons o l ih =>
    intro σ σ' hr
    unfold run at hr
    cases hs : step c σ o with
    | error e => rw [hs] at hr; cases hr
    | ok σ1 =>
      rw [hs] at hr
      rw [ih (fun o ho => hl o (List.mem_cons_of_mem _ ho)) σ1 σ' hr]
      have hn := hl o List.mem_cons_self
      cases o with
      | map j t a =>
        have hij : i ≠ j := fun h => hn.1 t a (by rw [h])
        simp only [step] at hs
        cases hm : map c (σ j) t a with
        | error e => rw [hm] at hs; cases hs
        | ok r => rw [hm] at hs; obtain rfl := Except.ok.inj hs; simp [setCore, hij]
      | unmap j t =>
        have hij : i ≠ j := fun h => hn.2.1 t (by rw [h])
        simp only [step] at hs
        cases hm : unmap (σ j) t with
        | error e => rw [hm] at hs; cases hs
        | ok r => rw [hm] at hs; obtain rfl := Except.ok.inj hs; simp [setCore, hij]
      | fill j va =>
        have hij : i ≠ j := fun h => hn.2.2.1 va (by rw [h])
        obtain rfl := Except.ok.inj hs; simp [setCore, hij]
      | evict j va =>
        have hij : i ≠ j := fun h => hn.2.2.2 va (by rw [h])
        obtain rfl := Except.ok.inj hs; simp [setCore, hij]

/-- C47: the check at the entry to and exit from the monitor succeeds exactly when the CPU
has unmapped all it mapped. -/
theorem C47_empty_check (c : Cpu) (hc : c.paWidth ≤ (if c.lpa2 then 52 else 48))
    (σ σ' : Nat → Core) (h0 : ∀ i, Fresh (σ i)) (l : List Op) (hr : run c σ l = .ok σ') (i : Nat) :
    slotsEmpty (σ' i) = true ↔ ∀ s, s < 108 → content i s l.reverse = none := by
  have hI := inv_run hc l σ σ' [] (fun i => holds_fresh (h0 i)) hr i
  rw [List.append_nil] at hI
  unfold slotsEmpty
  rw [List.all_eq_true]
  constructor
  · intro h s hs
    have := h s (List.mem_range.2 hs)
    rw [Nat.mod_eq_of_lt (show SLOT_VIRT + 4096 * s < 2 ^ 64 by rw [slotVirt]; omega),
      ttePtr_slot0 hs] at this
    have ht : (σ' i).tab (404 + s) = TRANSIENT_DESC := by simpa using this
    cases hm : content i s l.reverse with
    | none => rfl
    | some a =>
      have := ((hI s hs).2 a hm).2.2.1.mark
      rw [ht] at this
      exact absurd this transient_check
  · intro h s hs
    have hs := List.mem_range.1 hs
    have h1 := ((hI s hs).1 (h s hs)).1
    unfold NR_SLOTS at hs
    rw [Nat.mod_eq_of_lt (show SLOT_VIRT + 4096 * s < 2 ^ 64 by rw [slotVirt]; omega),
      ttePtr_slot0 hs]
    simpa using h1

/-- C47: the order of operations that `C47_slots_balanced` establishes is one that never
fails: a page-aligned address in range can be mapped in a slot that is not in use, and a
slot in use can be unmapped. -/
theorem C47_no_failure (c : Cpu) (hc : c.paWidth ≤ (if c.lpa2 then 52 else 48))
    (σ σ' : Nat → Core) (h0 : ∀ i, Fresh (σ i)) (l : List Op) (hr : run c σ l = .ok σ')
    (i s : Nat) (hs : s < 108) :
    ((∃ a, content i s l.reverse = some a) ↔ ∃ σ2, step c σ' (.unmap i s) = .ok σ2) ∧
    (∀ a, a % 4096 = 0 → a < 2 ^ c.paWidth →
      (content i s l.reverse = none ↔ ∃ σ2, step c σ' (.map i s a) = .ok σ2)) := by
  have hI := inv_run hc l σ σ' [] (fun i => holds_fresh (h0 i)) hr i
  rw [List.append_nil] at hI
  constructor
  · constructor
    · rintro ⟨a, ha⟩
      have := ((hI s hs).2 a ha).2.2.1.mark
      simp only [step]
      rw [unmap_ok hs this]; exact ⟨_, rfl⟩
    · rintro ⟨σ2, h⟩
      simp only [step] at h
      cases hm : unmap (σ' i) s with
      | error e => rw [hm] at h; cases h
      | ok k => exact (holds_unmap hI hm).1
  · intro a ha hb
    constructor
    · intro hn
      obtain ⟨r, hr⟩ := map_ok (c := c) hs ha (show a ≤ maxPa c by unfold maxPa; omega) ((hI s hs).1 hn).1
      simp only [step]
      rw [hr]; exact ⟨_, rfl⟩
    · rintro ⟨σ2, h⟩
      simp only [step] at h
      cases hm : map c (σ' i) s a with
      | error e => rw [hm] at h; cases h
      | ok r => exact (holds_map hc hI hm).1

/-- C47: the stacks of the CPU and the rest of its table are never touched. -/
theorem C47_rest_untouched (c : Cpu) (hc : c.paWidth ≤ (if c.lpa2 then 52 else 48)) (l : List Op) :
    ∀ (σ σ' : Nat → Core), run c σ l = .ok σ' →
      ∀ i n, n < 404 → (σ' i).tab n = (σ i).tab n := by
  induction l with
  | nil => intro σ σ' hr i n _; obtain rfl := Except.ok.inj hr; rfl
  | cons o l ih =>
    intro σ σ' hr i n hn
    unfold run at hr
    cases hs : step c σ o with
    | error e => rw [hs] at hr; cases hr
    | ok σ1 =>
      rw [hs] at hr
      rw [ih σ1 σ' hr i n hn]
      cases o with
      | map j t a =>
        simp only [step] at hs
        cases hm : map c (σ j) t a with
        | error e => rw [hm] at hs; cases hs
        | ok r =>
          rw [hm] at hs
          obtain rfl := Except.ok.inj hs
          obtain ⟨_, _, _, _, _, e, _, hr⟩ := map_inv hc hm
          simp only [setCore]
          split
          · rename_i h; subst h; rw [hr]; simp only [setTab]; rw [if_neg (by omega)]
          · rfl
      | unmap j t =>
        simp only [step] at hs
        cases hm : unmap (σ j) t with
        | error e => rw [hm] at hs; cases hs
        | ok k =>
          rw [hm] at hs
          obtain rfl := Except.ok.inj hs
          obtain ⟨_, _, rfl⟩ := unmap_inv hm
          simp only [setCore]
          split
          · rename_i h; subst h; simp only [setTab]; rw [if_neg (by omega)]
          · rfl
      | fill j va =>
        obtain rfl := Except.ok.inj hs
        simp only [setCore]
        split
        · rename_i h; subst h; unfold fill; split
          · rfl
          · split <;> rfl
        · rfl
      | evict j va =>
        obtain rfl := Except.ok.inj hs
        simp only [setCore]
        split
        · rename_i h; subst h; rfl
        · rfl

/-- C47: start-up reserves the slots: with any configuration of the high region in which the
slots are a transient region (lib/xlat/src/xlat_high_va.c:38-42), the table built has all
of them unmapped. -/
theorem C47_start (c : Cpu) (hpa : c.paWidth ≤ (if c.lpa2 then 52 else 48)) (mms : List Region)
    (hw : ∀ r, r ∈ mms → Word r) (hty : ∀ r, r ∈ mms → Spec.Supported r) (addr : Nat)
    (hfit : addr + 4096 ≤ 2 ^ 48) (old : Nat → Nat → BitVec 64) (t : Tabs)
    (hs : setup c true mms (512 * 4096) addr 1 old = .ok t)
    (hr : { basePa := 0, baseVa := 2 ^ 64 - 108 * 4096, size := 108 * 4096, attr := MT_TRANSIENT,
            gran := 4096 } ∈ mms) :
    Fresh { tab := t.mem 0, tlb := fun _ => none } := by
  intro s hs'
  refine ⟨?_, rfl⟩
  unfold NR_SLOTS at hs'
  have h := C46_transient_reserved hpa hw hty (by simpa using hfit) hs (2 ^ 64 - 108 * 4096 + 4096 * s)
    _ hr ⟨by simp, by simp; omega⟩ (by unfold Spec.Transient; decide)
  have hd : baseDepth (512 * 4096) = 0 := by decide
  rw [hd, show ctxBaseVa true (512 * 4096) = 2 ^ 64 - 2 ^ 21 from highBase] at h
  unfold look at h
  rw [show bsz 0 = 4096 by decide,
    show (2 ^ 64 - 108 * 4096 + 4096 * s - (2 ^ 64 - 2 ^ 21)) / 4096 % 512 = 404 + s by omega] at h
  exact h

/-! ### Access to Non-secure memory -/

theorem access_slot {c : Cpu} {k : Core} {m : Nat → Option Nat} (hk : Holds c k m) {s a : Nat}
    (hs : s < NR_SLOTS) (hm : m s = some a) {off : Nat} (ho : off < 4096) :
    access c k (SLOT_VIRT + 4096 * s + off) = some ⟨a + off, decide (s = SLOT_NS)⟩ := by
  obtain ⟨_, _, h3, h4⟩ := (hk s hs).2 a hm
  have hn : (Spec.decode (k.tab (404 + s))).nonSecure = decide (s = SLOT_NS) := by
    rw [h3.attrs]
    unfold slotAttr
    by_cases h : s = SLOT_NS
    · rw [if_pos h, decide_eq_true h]; decide
    · rw [if_neg h, decide_eq_false h]; decide
  have hmod : (SLOT_VIRT + 4096 * s + off) % 4096 = off := by rw [slotVirt]; omega
  unfold access
  rw [tlbKey_slot hs ho, ttePtr_slot hs ho]
  cases hd : k.tlb (2 ^ 44 - 108 + s) with
  | some d =>
    have := h4 d hd
    subst this
    simp only [h3.addr, hmod, hn]
  | none =>
    simp only [h3.type, if_true, h3.addr, hmod, hn]

/-- The number of accesses before the first fault. -/
def firstFault (p : Nat → Bool) : Nat → Nat → Nat
  | 0, _ => 0
  | n + 1, i => if p i then firstFault p n (i + 1) + 1 else 0

theorem firstFault_spec (p : Nat → Bool) : ∀ n i,
    firstFault p n i ≤ n ∧ (∀ j, j < firstFault p n i → p (i + j) = true) ∧
    (firstFault p n i < n → p (i + firstFault p n i) = false) := by
  intro n
  induction n with
  | zero => intro i; simp [firstFault]
  | succ n ih =>
    intro i
    unfold firstFault
    by_cases h : p i = true
    · rw [if_pos h]
      obtain ⟨h1, h2, h3⟩ := ih (i + 1)
      refine ⟨by omega, ?_, ?_⟩
      · intro j hj
        cases j with
        | zero => simpa using h
        | succ j => rw [show i + (j + 1) = i + 1 + j by omega]; exact h2 j (by omega)
      · intro hlt
        rw [show i + (firstFault p n (i + 1) + 1) = i + 1 + firstFault p n (i + 1) by omega]
        exact h3 (by omega)
    · rw [if_neg h]
      exact ⟨by omega, by intro j hj; omega, by intro _; simpa using h⟩

theorem copyIn_spec {c : Cpu} {k : Core} (va : Nat) (f : Nat → Acc)
    (bus : Nat → Acc → Option (BitVec 64)) : ∀ n i,
    (∀ j, i ≤ j → j < i + n → access c k (va + 8 * j) = some (f j)) →
    ∀ q, q = firstFault (fun j => (bus j (f j)).isSome) n i →
    copyIn c k va bus n i = .ok (decide (q = n),
      (List.range q).map (fun j => ((bus (i + j) (f (i + j))).getD 0#64)),
      (List.range q).map (fun j => f (i + j))) := by
  intro n
  induction n with
  | zero => intro i _ q hq; subst hq; simp [copyIn, firstFault]
  | succ n ih =>
    intro i h q hq
    unfold copyIn
    rw [h i (le_refl _) (by omega)]
    simp only
    unfold firstFault at hq
    cases hb : bus i (f i) with
    | none =>
      simp only [hb, Option.isSome_none, Bool.false_eq_true, if_false] at hq
      subst hq
      simp
    | some v =>
      simp only [hb, Option.isSome_some, if_true] at hq
      have := ih (i + 1) (fun j h1 h2 => h j (by omega) (by omega)) _ rfl
      simp only [this, bind, Except.bind, pure, Except.pure]
      rw [hq, List.range_succ_eq_map]
      congr 1
      simp only [List.map_cons, List.map_map, Nat.add_zero, hb, Option.getD_some, Prod.mk.injEq,
        Nat.add_right_cancel_iff, List.cons.injEq, true_and]
      refine ⟨?_, ?_⟩
      · apply List.map_congr_left
        intro j _
        simp only [Function.comp, Nat.succ_eq_add_one]
        rw [show i + (j + 1) = i + 1 + j by omega]
      · apply List.map_congr_left
        intro j _
        simp only [Function.comp, Nat.succ_eq_add_one]
        rw [show i + (j + 1) = i + 1 + j by omega]

theorem copyOut_spec {c : Cpu} {k : Core} (va : Nat) (f : Nat → Acc)
    (bus : Nat → Acc → Bool) (src : Nat → BitVec 64) : ∀ n i,
    (∀ j, i ≤ j → j < i + n → access c k (va + 8 * j) = some (f j)) →
    ∀ q, q = firstFault (fun j => bus j (f j)) n i →
    copyOut c k va bus src n i = .ok (decide (q = n),
      (List.range q).map (fun j => (f (i + j), src (i + j)))) := by
  intro n
  induction n with
  | zero => intro i _ q hq; subst hq; simp [copyOut, firstFault]
  | succ n ih =>
    intro i h q hq
    unfold copyOut
    rw [h i (le_refl _) (by omega)]
    simp only
    unfold firstFault at hq
    cases hb : bus i (f i) with
    | false =>
      simp only [hb, Bool.false_eq_true, if_false] at hq
      subst hq
      simp
    | true =>
      simp only [hb, if_true] at hq
      have := ih (i + 1) (fun j h1 h2 => h j (by omega) (by omega)) _ rfl
      simp only [this, bind, Except.bind, pure, Except.pure, if_true]
      rw [hq, List.range_succ_eq_map]
      congr 1
      simp only [List.map_cons, List.map_map, Nat.add_zero, Prod.mk.injEq,
        Nat.add_right_cancel_iff, List.cons.injEq, true_and]
      apply List.map_congr_left
      intro j _
      simp only [Function.comp, Nat.succ_eq_add_one]
      rw [show i + (j + 1) = i + 1 + j by omega]

/-- The state of the CPU while and after a Non-secure granule is mapped. -/
theorem ns_frame {c : Cpu} (hc : c.paWidth ≤ (if c.lpa2 then 52 else 48)) {k : Core}
    {m : Nat → Option Nat} (hk : Holds c k m) (hfree : m SLOT_NS = none) {addr : Nat}
    (ha : addr % 4096 = 0) (hb : addr < 2 ^ c.paWidth) :
    ∃ k1 k2, map c k SLOT_NS addr = .ok (SLOT_VIRT, k1) ∧ unmap k1 SLOT_NS = .ok k2 ∧
      Holds c k1 (fun x => if x = SLOT_NS then some addr else m x) ∧ Holds c k2 m ∧
      k2.tab = k.tab := by
  have h0 : SLOT_NS < NR_SLOTS := by decide
  obtain ⟨r, hr⟩ := map_ok (c := c) h0 ha (show addr ≤ maxPa c by unfold maxPa; omega) ((hk _ h0).1 hfree).1
  have hh := (holds_map hc hk hr).2
  obtain ⟨_, _, _, hv, hf, e, _, hr2⟩ := map_inv hc hr
  have hm := ((hh _ h0).2 addr (by simp)).2.2.1.mark
  have hu := unmap_ok h0 hm
  refine ⟨r.2, _, ?_, hu, hh, ?_, ?_⟩
  · rw [hr]; rw [show r = (r.1, r.2) from rfl, hv]; rfl
  · have := (holds_unmap hh hu).2
    refine cast ?_ this
    congr 1; funext x
    by_cases hx : x = SLOT_NS
    · simp [hx, hfree]
    · simp [hx]
  · rw [hr2]
    funext j
    simp only [setTab]
    split
    · rename_i h; rw [h, hf]
    · rfl

/-- C47: `ns_buffer_read` on a CPU whose Non-secure slot is free.  For every address of a
granule, every offset (of which the bits below the granule size count) and size that meet
the assertions, and everything the memory may answer: the accesses are 8-byte reads, in the
Non-secure world, of exactly the addresses from `addr + off % 4096` on, in order, up to the
first that faults; the words read are what is delivered; the result is `true` exactly if
none faults; and the slots are afterwards as they were (no translation of the granule is left
in the table or cached). -/
theorem C47_ns_read (c : Cpu) (hc : c.paWidth ≤ (if c.lpa2 then 52 else 48))
    (σ σ' : Nat → Core) (h0 : ∀ i, Fresh (σ i)) (l : List Op) (hr : run c σ l = .ok σ')
    (i : Nat) (hfree : content i 0 l.reverse = none) (addr off size : Nat)
    (ha : addr % 4096 = 0) (hb : addr < 2 ^ c.paWidth) (hal : size % 8 = 0 ∧ off % 8 = 0)
    (hin : off % 4096 + size ≤ 4096) (bus : Nat → Acc → Option (BitVec 64)) :
    ∃ (n : Nat) (k : Core), n ≤ size / 8 ∧
      nsRead c (σ' i) 0 addr off size bus = .ok ((decide (n = size / 8),
        (List.range n).map (fun j => (bus j ⟨addr + off % 4096 + 8 * j, true⟩).getD 0#64),
        (List.range n).map (fun j => ⟨addr + off % 4096 + 8 * j, true⟩)), k) ∧
      (∀ j, j < n → bus j ⟨addr + off % 4096 + 8 * j, true⟩ ≠ none) ∧
      (n < size / 8 → bus n ⟨addr + off % 4096 + 8 * n, true⟩ = none) ∧
      k.tab = (σ' i).tab ∧
      (∀ s o d, s < 108 → o < 4096 → Uses k (2 ^ 64 - 108 * 4096 + 4096 * s + o) d →
        content i s l.reverse = some (Spec.outAddr c.lpa2 d)) := by
  have hI := inv_run hc l σ σ' [] (fun i => holds_fresh (h0 i)) hr i
  rw [List.append_nil] at hI
  obtain ⟨k1, k2, hm, hu, hh1, hh2, ht⟩ := ns_frame hc hI hfree ha hb
  have hacc : ∀ j, 0 ≤ j → j < 0 + size / 8 →
      access c k1 (SLOT_VIRT + off % 4096 + 8 * j) = some ⟨addr + off % 4096 + 8 * j, true⟩ := by
    intro j _ hj
    have := access_slot hh1 (s := SLOT_NS) (by decide) (a := addr) (by simp)
      (off := off % 4096 + 8 * j) (by omega)
    rw [show SLOT_VIRT + 4096 * SLOT_NS + (off % 4096 + 8 * j) = SLOT_VIRT + off % 4096 + 8 * j by
      unfold SLOT_NS; omega] at this
    rw [this, ← Nat.add_assoc]; rfl
  have hsp := copyIn_spec (c := c) (k := k1) (SLOT_VIRT + off % 4096)
    (fun j => ⟨addr + off % 4096 + 8 * j, true⟩) bus (size / 8) 0 hacc _ rfl
  have hff := firstFault_spec (fun j => (bus j ⟨addr + off % 4096 + 8 * j, true⟩).isSome) (size / 8) 0
  refine ⟨_, k2, hff.1, ?_, ?_, ?_, ht,
    fun s o d hs ho hd => (holds_view hh2 hs ho hd).1⟩
  · unfold nsRead nsArgs
    rw [if_neg (by simp [SLOT_NS]), if_neg (by omega), if_neg (by omega)]
    simp only [bind, Except.bind]
    rw [show map c (σ' i) 0 addr = _ from hm]
    simp only [hsp, show unmap k1 0 = _ from hu, pure, Except.pure, Nat.zero_add]
  · intro j hj
    have := hff.2.1 j hj
    rw [Nat.zero_add] at this
    exact Option.isSome_iff_ne_none.1 this
  · intro hlt
    have := hff.2.2 hlt
    rw [Nat.zero_add] at this
    simpa using this

/-- C47: `ns_buffer_write`, likewise: the stores are exactly the given words, to the
addresses of the window in order up to the first that faults, in the Non-secure world. -/
theorem C47_ns_write (c : Cpu) (hc : c.paWidth ≤ (if c.lpa2 then 52 else 48))
    (σ σ' : Nat → Core) (h0 : ∀ i, Fresh (σ i)) (l : List Op) (hr : run c σ l = .ok σ')
    (i : Nat) (hfree : content i 0 l.reverse = none) (addr off size : Nat)
    (ha : addr % 4096 = 0) (hb : addr < 2 ^ c.paWidth) (hal : size % 8 = 0 ∧ off % 8 = 0)
    (hin : off % 4096 + size ≤ 4096) (bus : Nat → Acc → Bool) (src : Nat → BitVec 64) :
    ∃ (n : Nat) (k : Core), n ≤ size / 8 ∧
      nsWrite c (σ' i) 0 addr off size bus src = .ok ((decide (n = size / 8),
        (List.range n).map (fun j => (⟨addr + off % 4096 + 8 * j, true⟩, src j))), k) ∧
      (∀ j, j < n → bus j ⟨addr + off % 4096 + 8 * j, true⟩ = true) ∧
      (n < size / 8 → bus n ⟨addr + off % 4096 + 8 * n, true⟩ = false) ∧
      k.tab = (σ' i).tab ∧
      (∀ s o d, s < 108 → o < 4096 → Uses k (2 ^ 64 - 108 * 4096 + 4096 * s + o) d →
        content i s l.reverse = some (Spec.outAddr c.lpa2 d)) := by
  have hI := inv_run hc l σ σ' [] (fun i => holds_fresh (h0 i)) hr i
  rw [List.append_nil] at hI
  obtain ⟨k1, k2, hm, hu, hh1, hh2, ht⟩ := ns_frame hc hI hfree ha hb
  have hacc : ∀ j, 0 ≤ j → j < 0 + size / 8 →
      access c k1 (SLOT_VIRT + off % 4096 + 8 * j) = some ⟨addr + off % 4096 + 8 * j, true⟩ := by
    intro j _ hj
    have := access_slot hh1 (s := SLOT_NS) (by decide) (a := addr) (by simp)
      (off := off % 4096 + 8 * j) (by omega)
    rw [show SLOT_VIRT + 4096 * SLOT_NS + (off % 4096 + 8 * j) = SLOT_VIRT + off % 4096 + 8 * j by
      unfold SLOT_NS; omega] at this
    rw [this, ← Nat.add_assoc]; rfl
  have hsp := copyOut_spec (c := c) (k := k1) (SLOT_VIRT + off % 4096)
    (fun j => ⟨addr + off % 4096 + 8 * j, true⟩) bus src (size / 8) 0 hacc _ rfl
  have hff := firstFault_spec (fun j => bus j ⟨addr + off % 4096 + 8 * j, true⟩) (size / 8) 0
  refine ⟨_, k2, hff.1, ?_, ?_, ?_, ht,
    fun s o d hs ho hd => (holds_view hh2 hs ho hd).1⟩
  · unfold nsWrite nsArgs
    rw [if_neg (by simp [SLOT_NS]), if_neg (by omega), if_neg (by omega)]
    simp only [bind, Except.bind]
    rw [show map c (σ' i) 0 addr = _ from hm]
    simp only [hsp, show unmap k1 0 = _ from hu, pure, Except.pure, Nat.zero_add]
  · intro j hj
    have := hff.2.1 j hj
    rw [Nat.zero_add] at this
    exact this
  · intro hlt
    have := hff.2.2 hlt
    rw [Nat.zero_add] at this
    exact this

/-! ### Concrete cases -/

/-- Two CPUs, nothing mapped. -/
def demo : Nat → Core := fun _ => { tab := fun _ => TRANSIENT_DESC, tlb := fun _ => none }

example : ∀ i, Fresh (demo i) := fun _ _ _ => ⟨rfl, rfl⟩

/-- CPU 0 maps a granule as RD, CPU 1 another one; CPU 0 caches and unmaps. -/
def demoOps : List Op :=
  [.map 0 2 0x88000000, .map 1 2 0x90000000, .fill 0 (2 ^ 64 - 106 * 4096 + 8), .unmap 0 2]

example : (run demoCpu demo demoOps).toOption.isSome = true := by decide +kernel

example : content 1 2 demoOps.reverse = some 0x90000000 ∧ content 0 2 demoOps.reverse = none := by
  decide

/-- Reading the 2048 bytes of the entry part of a REC run page whose third word faults. -/
example : (nsRead demoCpu (demo 0) 0 0x88000000 0 2048
    (fun i _ => if i = 2 then none else some 7#64)).toOption.map (·.1) =
    some (false, [7#64, 7#64], [⟨0x88000000, true⟩, ⟨0x88000008, true⟩]) := by
  decide +kernel

end Verif.Slot
