import Verif.Heap.Take
import Mathlib.Data.List.Perm.Subperm

/-! `verify_chain`, the search and `calloc` as a whole.  Helper lemmas only. -/

namespace Verif.Heap

theorem Tile.length {sz : Nat → Nat} {a e : Nat} {L : List Nat} (h : Tile sz a L e) :
    a + 64 * L.length ≤ e := by
  induction L generalizing a with
  | nil => simp only [Tile] at h; simp; omega
  | cons c t ih =>
    simp only [Tile] at h
    have := ih h.2.2
    simp only [List.length_cons]
    omega

theorem Base.length {h : Heap} {L : List Nat} (hi : Base h L) : L.length ≤ h.len := by
  have := hi.tile.length; omega

theorem Inv.flength {h : Heap} {L F : List Nat} (hi : Inv h L F) : F.length ≤ h.len :=
  Nat.le_trans ((List.subperm_of_subset hi.fnd fun a ha => ((hi.fmem a).1 ha).1).length_le)
    hi.length

/-- Prev and next differ. -/
theorem Seg.pv_ne_nx {nx pv : Nat → Nat} {L : List Nat} (h : Seg nx pv 0 L 0) (hnd : L.Nodup)
    {a : Nat} (ha : a ∈ L) : pv a = 0 ∨ pv a ≠ nx a := by
  obtain ⟨A, B, rfl⟩ := List.append_of_mem ha
  obtain ⟨h1, ha0, h2⟩ := Seg.append.1 h
  have := h1.last_mem ha0
  have := h2.head_mem
  grind

theorem Seg.pv_ne_self {nx pv : Nat → Nat} {L : List Nat} (h : Seg nx pv 0 L 0) (hnd : L.Nodup)
    {a : Nat} (ha : a ∈ L) : pv a ≠ a ∧ nx a ≠ a := by
  obtain ⟨A, B, rfl⟩ := List.append_of_mem ha
  obtain ⟨h1, ha0, h2⟩ := Seg.append.1 h
  have := h1.last_mem ha0
  have := h2.head_mem
  grind

theorem Inv.verifyHeader {h : Heap} {L F : List Nat} (hi : Inv h L F) {a : Nat} (ha : a ∈ L) :
    verifyHeader (h.hdr a) = true := by
  have h0 := hi.mem_ne ha
  have h1 := hi.seg.pv_ne_nx hi.nodup ha
  have h2 : h.pf a = 0 ∨ h.pf a ≠ h.nf a := by
    by_cases hf : a ∈ F
    · exact hi.fseg.pv_ne_nx hi.fnd hf
    · have h3 := hi.alloc a ha
      have h4 := hi.fmem a
      have := hi.fzero a ha (by grind)
      exact Or.inl this.2
  have h3 := hi.magic a ha
  have h4 := hi.alloc a ha
  simp only [Heap.pf, Heap.nf, Heap.pv, Heap.nx, if_neg h0] at h1 h2
  simp only [Heap.verifyHeader, h3, beq_self_eq_true, Bool.true_and, Bool.and_eq_true,
    decide_eq_true_eq, Bool.not_eq_true', Bool.and_eq_false_imp, bne_iff_ne, beq_eq_false_iff_ne]
  grind

theorem Inv.verifyLoop {h : Heap} {L F : List Nat} (hi : Inv h L F) :
    ∀ (B : List Nat) (fuel prv : Nat), (∀ b ∈ B, b ∈ L) → prv ≠ 0 → Seg h.nx h.pv prv B 0 →
      B.length < fuel → verifyLoop h fuel prv (h.hdr prv).next = some true := by
  intro B
  induction B with
  | nil =>
    intro fuel prv _ hp hs hf
    obtain ⟨k, rfl⟩ : ∃ k, fuel = k + 1 := ⟨fuel - 1, by omega⟩
    simp only [Seg, Heap.nx, if_neg hp] at hs
    rw [Heap.verifyLoop, if_pos hs.1]
  | cons b t ih =>
    intro fuel prv hm hp hs hf
    simp only [List.length_cons] at hf
    obtain ⟨k, rfl⟩ : ∃ k, fuel = k + 1 := ⟨fuel - 1, by omega⟩
    simp only [Seg] at hs
    obtain ⟨hs1, hb0, hs3, hs4⟩ := hs
    have hbL := hm b (by simp)
    simp only [Heap.nx, if_neg hp] at hs1
    simp only [Heap.pv] at hs3
    rw [Heap.verifyLoop, hs1, if_neg hb0, (hi.dom b).2 hbL, hi.verifyHeader hbL]
    simp only [need_true, if_true, hs3]
    exact ih k b (fun c hc => hm c (by simp [hc])) hb0 hs4 (by omega)

theorem Inv.verifyChain {h : Heap} {L F : List Nat} (hi : Inv h L F) :
    verifyChain h = some true := by
  have hne := hi.ne
  have hs := hi.seg
  have hl := hi.length
  cases L with
  | nil => exact absurd rfl hne
  | cons a t =>
    simp only [Seg] at hs
    obtain ⟨hs1, ha0, hs3, hs4⟩ := hs
    simp only [Heap.nx, if_true] at hs1
    simp only [Heap.pv] at hs3
    unfold Heap.verifyChain
    rw [hs1, if_neg ha0, (hi.dom a).2 (by simp), hi.verifyHeader (a := a) (by simp)]
    simp only [need_true, if_true, hs3]
    have := hi.verifyLoop t (h.len + 1) a (fun b hb => by simp [hb]) ha0 hs4
      (by simp only [List.length_cons] at hl; omega)
    simpa using this

/-- The search returns the first block of the free list that fits. -/
theorem Inv.search {h : Heap} {L F : List Nat} (hi : Inv h L F) (len : Nat) :
    ∀ (B : List Nat) (fuel a : Nat), (∀ b ∈ B, b ∈ F) → Seg h.nf h.pf a B 0 →
      B.length < fuel → ∃ r, search h len fuel (h.nf a) = some r ∧
        ((r = 0 ∧ ∀ b ∈ B, (h.hdr b).size < len) ∨ (r ∈ B ∧ len ≤ (h.hdr r).size)) := by
  intro B
  induction B with
  | nil =>
    intro fuel a _ hs hf
    obtain ⟨k, rfl⟩ : ∃ k, fuel = k + 1 := ⟨fuel - 1, by omega⟩
    simp only [Seg] at hs
    exact ⟨0, by rw [Heap.search, if_pos hs.1], by simp⟩
  | cons b t ih =>
    intro fuel a hm hs hf
    simp only [List.length_cons] at hf
    obtain ⟨k, rfl⟩ : ∃ k, fuel = k + 1 := ⟨fuel - 1, by omega⟩
    simp only [Seg] at hs
    obtain ⟨hs1, hb0, hs3, hs4⟩ := hs
    have hbF := hm b (by simp)
    have hbL := ((hi.fmem b).1 hbF).1
    rw [Heap.search, hs1, if_neg hb0, (hi.dom b).2 hbL]
    by_cases hz : (h.hdr b).size ≥ len
    · exact ⟨b, by simp [hz], Or.inr ⟨by simp, hz⟩⟩
    · obtain ⟨r, hr, hr'⟩ := ih k b (fun c hc => hm c (by simp [hc])) hs4 (by omega)
      refine ⟨r, ?_, ?_⟩
      · simp only [Heap.nf, if_neg hb0] at hr
        simpa [hz] using hr
      · rcases hr' with ⟨h1, h2⟩ | ⟨h1, h2⟩
        · left; refine ⟨h1, ?_⟩
          intro c hc
          rcases List.mem_cons.1 hc with rfl | hc
          · omega
          · exact h2 c hc
        · right; exact ⟨by simp [h1], h2⟩

/-- What a successful allocation of `orig` bytes in block `cur` does. -/
structure Took (h h' : Heap) (L L' : List Nat) (cur orig : Nat) : Prop where
  buf : h'.buf = h.buf
  len : h'.len = h.len
  va : h'.verifyAlloc = h.verifyAlloc
  vf : h'.verifyFree = h.verifyFree
  sub : ∀ a ∈ L, a ∈ L'
  new : ∀ a ∈ L', a ∉ L → (h'.hdr a).alloc = 0
  keep : ∀ a ∈ L, a ≠ cur → (h'.hdr a).alloc = (h.hdr a).alloc ∧ (h'.hdr a).size = (h.hdr a).size
  now : (h'.hdr cur).alloc = 1
  size : orig ≤ (h'.hdr cur).size
  zero : ∀ b, cur + 64 ≤ b → b < cur + 64 + orig → h'.mem b = 0
  rest : ∀ b, ¬(cur + 64 ≤ b ∧ b < cur + 64 + orig) →
    h'.mem b = h.mem b ∨ ∃ a ∈ L', a ≤ b ∧ b < a + 64

theorem Inv.mem_irrel {h : Heap} {L F : List Nat} (hi : Inv h L F) (m : Nat → Nat) :
    Inv { h with mem := m } L F :=
  ⟨⟨hi.buf0, hi.end64, hi.first, hi.tile, hi.ne, hi.seg, hi.dom, hi.alloc, hi.magic⟩,
    hi.fseg, hi.fnd, hi.fmem, hi.fzero, hi.adj⟩

theorem takeWhole_spec {h : Heap} {L F : List Nat} {cur orig : Nat} (hi : Inv h L F)
    (hc : cur ∈ F) (ho : orig ≤ (h.hdr cur).size) (ho0 : 0 < orig) :
    ∃ h' F', takeWhole h cur orig = some (h', cur + 64) ∧ Inv h' L F' ∧ Took h h' L L cur orig := by
  have hcL := ((hi.fmem cur).1 hc).1
  have hc0 := hi.mem_ne hcL
  obtain ⟨F', hw⟩ := whole_inv hi hc
  have hok1 := hi.ok_pf hc
  have hok2 := hi.ok_nf hc
  have hb := (hi.tile.bounds.2 cur hcL).2.2
  have he := hi.end64
  simp only [Heap.pf, Heap.nf, if_neg hc0] at hok1 hok2
  have hfL : ∀ a, a ∈ F → a ∈ L := fun a ha => ((hi.fmem a).1 ha).1
  have h1 : okPtr h (h.hdr cur).prevFree = true :=
    okPtr_iff.2 (hok1.imp id fun hm => (hi.dom _).2 (hfL _ hm))
  have h2 : okPtr h (h.hdr cur).nextFree = true :=
    okPtr_iff.2 (hok2.imp id fun hm => (hi.dom _).2 (hfL _ hm))
  have hr : (cur + 64) % W64 = cur + 64 := Nat.mod_eq_of_lt (by omega)
  refine ⟨{ wholeHeap h cur with mem := fill (wholeHeap h cur).mem (cur + 64) orig 0 }, F', ?_,
    hw.mem_irrel _, ?_⟩
  · have hv := hw.verifyChain
    have hfin : (((h.wr cur fun x => { x with alloc := 1 }).setNf (h.hdr cur).prevFree
        (h.hdr cur).nextFree).setPf (h.hdr cur).nextFree (h.hdr cur).prevFree).wr cur
        (fun x => { x with prevFree := 0, nextFree := 0 }) = wholeHeap h cur := rfl
    unfold takeWhole
    simp only [(hi.dom cur).2 hcL, need_true, wr_prevFree, wr_nextFree, setNf_nextFree,
      setNf_prevFree, okPtr, wr_dom, setNf_dom, if_true]
    simp only [okPtr] at h1 h2
    have h3 : (h.hdr cur).prevFree ≠ cur := by
      have := (hi.fseg.pv_ne_self hi.fnd hc).1
      simpa [Heap.pf] using this
    have h4 : ¬(cur = (h.hdr cur).prevFree ∧ (h.hdr cur).prevFree ≠ 0) := by
      rintro ⟨h5, _⟩; exact h3 h5.symm
    rw [if_neg h4, h1, h2]
    simp only [need_true, hfin, hr, Option.bind_eq_bind, Option.bind_some, hv, Option.pure_def]
    split <;> rfl
  · have hcA := ((hi.fmem cur).1 hc).2
    refine ⟨by simp [wholeHeap], by simp [wholeHeap], by simp [wholeHeap], by simp [wholeHeap],
      fun a ha => ha, fun a ha hn => absurd ha hn, ?_, ?_, ?_, ?_, ?_⟩
    · intro a ha hac
      constructor
      · show ((wholeHeap h cur).hdr a).alloc = _
        unfold wholeHeap; heap_simp; grind
      · show ((wholeHeap h cur).hdr a).size = _
        unfold wholeHeap; heap_simp; grind
    · show ((wholeHeap h cur).hdr cur).alloc = _
      unfold wholeHeap; heap_simp; grind
    · show _ ≤ ((wholeHeap h cur).hdr cur).size
      unfold wholeHeap; heap_simp; grind
    · intro b hb1 hb2
      show fill _ _ _ _ b = 0
      rw [fill, if_pos ⟨hb1, hb2⟩]
    · intro b hb'
      show fill _ _ _ _ b = _ ∨ _
      rw [fill, if_neg hb']
      by_cases hin : ∃ a ∈ L, a ≤ b ∧ b < a + 64
      · exact Or.inr hin
      · left
        simp only [not_exists, not_and] at hin
        have i1 := hin cur hcL
        have i2 : (h.hdr cur).prevFree ≠ 0 → _ := fun hne =>
          hin (h.hdr cur).prevFree (hfL _ (hok1.resolve_left hne))
        have i3 : (h.hdr cur).nextFree ≠ 0 → _ := fun hne =>
          hin (h.hdr cur).nextFree (hfL _ (hok2.resolve_left hne))
        simp only [wholeHeap, wr_mem, setPf_mem, setNf_mem]
        split <;> split <;> simp only [fill] <;> grind

theorem takeSplit_spec {h : Heap} {L F : List Nat} {cur len orig : Nat} (hi : Inv h L F)
    (hc : cur ∈ F) (ho : orig ≤ len) (hlen : len + 72 ≤ (h.hdr cur).size)
    (h8 : len % 8 = 0) :
    ∃ h' L' F', takeSplit h cur len orig = some (h', cur + 64) ∧ Inv h' L' F' ∧
      Took h h' L L' cur orig := by
  have hcL := ((hi.fmem cur).1 hc).1
  have hc0 := hi.mem_ne hcL
  obtain ⟨L', F', hw, hnew, hL'⟩ := split_inv hi hc hlen h8
  have hok1 := hi.ok_pf hc
  have hok2 := hi.ok_nf hc
  have hok3 := hi.ok_nx hcL
  have hb := (hi.tile.bounds.2 cur hcL).2.2
  have he := hi.end64
  have h3 := (hi.fseg.pv_ne_self hi.fnd hc).1
  have h4 := (hi.fseg.pv_ne_self hi.fnd hc).2
  have h5 := (hi.seg.pv_ne_self hi.nodup hcL).2
  simp only [Heap.pf, Heap.nf, Heap.nx, if_neg hc0] at hok1 hok2 hok3 h3 h4 h5
  have hfL : ∀ a, a ∈ F → a ∈ L := fun a ha => ((hi.fmem a).1 ha).1
  have o1 : ((h.hdr cur).prevFree == 0 || upd h.dom (cur + 64 + len) true (h.hdr cur).prevFree)
      = true := by
    have := fun hm => (hi.dom (h.hdr cur).prevFree).2 (hfL _ hm)
    simp only [upd]; grind
  have o2 : ((h.hdr cur).nextFree == 0 || upd h.dom (cur + 64 + len) true (h.hdr cur).nextFree)
      = true := by
    have := fun hm => (hi.dom (h.hdr cur).nextFree).2 (hfL _ hm)
    simp only [upd]; grind
  have o3 : ((h.hdr cur).next == 0 || upd h.dom (cur + 64 + len) true (h.hdr cur).next)
      = true := by
    have := fun hm => (hi.dom (h.hdr cur).next).2 hm
    simp only [upd]; grind
  have n1 : (h.hdr cur).prevFree ≠ cur + 64 + len := by
    intro h; rcases hok1 with h1 | h1
    · omega
    · exact hnew (h ▸ hfL _ h1)
  have n2 : (h.hdr cur).nextFree ≠ cur + 64 + len := by
    intro h; rcases hok2 with h1 | h1
    · omega
    · exact hnew (h ▸ hfL _ h1)
  have n3 : (h.hdr cur).next ≠ cur + 64 + len := by
    intro h; rcases hok3 with h1 | h1
    · omega
    · exact hnew (h ▸ h1)
  have hr : (cur + 64) % W64 = cur + 64 := Nat.mod_eq_of_lt (by omega)
  have hr2 : (cur + 64 + len) % W64 = cur + 64 + len := Nat.mod_eq_of_lt (by omega)
  have hcn : cur ≠ cur + 64 + len := by omega
  refine ⟨{ splitHeap h cur len with mem := fill (splitHeap h cur len).mem (cur + 64) orig 0 },
    L', F', ?_, hw.mem_irrel _, ?_⟩
  · have hv := hw.verifyChain
    have hne : ((cur + 64 + len) != 0) = true := by simp
    have e1 : ∀ (a : Nat) (b c : Hdr), (if cur = cur + 64 + len then b else c) = c := by
      intro a b c; rw [if_neg hcn]
    have c1 : ¬(cur + 64 + len = (h.hdr cur).prevFree ∧ (h.hdr cur).prevFree ≠ 0) := by
      rintro ⟨h5, _⟩; exact n1 h5.symm
    unfold takeSplit
    simp only [hr2, (hi.dom cur).2 hcL, need_true, wr_next, wr_prevFree, wr_nextFree,
      setNf_nextFree, setNf_prevFree, setPrev_prevFree, setPrev_nextFree, okPtr, wr_dom, setNf_dom,
      setPrev_dom, if_true, if_neg hcn, if_neg c1, o1, o2, o3, hne]
    have hfin : splitHeap h cur len = splitHeap h cur len := rfl
    conv_rhs at hfin => unfold splitHeap
    simp only [Option.bind_eq_bind, Option.bind_some]
    rw [← hfin]
    simp only [hv, hr]
    split <;> rfl
  · refine ⟨by simp [splitHeap], by simp [splitHeap], by simp [splitHeap], by simp [splitHeap],
      fun a ha => (hL' a).2 (Or.inl ha), ?_, ?_, ?_, ?_, ?_, ?_⟩
    · intro a ha hn
      have : a = cur + 64 + len := ((hL' a).1 ha).resolve_left hn
      show ((splitHeap h cur len).hdr a).alloc = _
      unfold splitHeap; heap_simp; grind
    · intro a ha hac
      have : a ≠ cur + 64 + len := fun h => hnew (h ▸ ha)
      constructor
      · show ((splitHeap h cur len).hdr a).alloc = _
        unfold splitHeap; heap_simp; grind
      · show ((splitHeap h cur len).hdr a).size = _
        unfold splitHeap; heap_simp; grind
    · show ((splitHeap h cur len).hdr cur).alloc = _
      unfold splitHeap; heap_simp; grind
    · show _ ≤ ((splitHeap h cur len).hdr cur).size
      unfold splitHeap; heap_simp; grind
    · intro b hb1 hb2
      show fill _ _ _ _ b = 0
      rw [fill, if_pos ⟨hb1, hb2⟩]
    · intro b hb'
      show fill _ _ _ _ b = _ ∨ _
      rw [fill, if_neg hb']
      by_cases hin : ∃ a ∈ L', a ≤ b ∧ b < a + 64
      · exact Or.inr hin
      · left
        simp only [not_exists, not_and] at hin
        have i0 := hin (cur + 64 + len) ((hL' _).2 (Or.inr rfl))
        have hin' : ∀ a ∈ L, a ≤ b → ¬b < a + 64 := fun a ha => hin a ((hL' a).2 (Or.inl ha))
        have i1 := hin' cur hcL
        have i2 : (h.hdr cur).prevFree ≠ 0 → _ := fun hne =>
          hin' (h.hdr cur).prevFree (hfL _ (hok1.resolve_left hne))
        have i3 : (h.hdr cur).nextFree ≠ 0 → _ := fun hne =>
          hin' (h.hdr cur).nextFree (hfL _ (hok2.resolve_left hne))
        have i4 : (h.hdr cur).next ≠ 0 → _ := fun hne =>
          hin' (h.hdr cur).next (hok3.resolve_left hne)
        simp only [splitHeap, wr_mem, setPf_mem, setNf_mem, setPrev_mem]
        split <;> split <;> split <;> simp only [fill] <;> grind

theorem roundUp_spec (n : Nat) : n ≤ roundUp n ∧ roundUp n % 8 = 0 ∧ roundUp n < n + 8 := by
  unfold roundUp alignMult
  split <;> omega

/-- A product that does not fit 64 bits is detected by dividing again. -/
theorem overflow_check {n size : Nat} (hn : n < W64) (hn0 : n ≠ 0) :
    n * size % W64 / n = size ↔ n * size < W64 := by
  constructor
  · intro h
    by_contra hge
    have hge : W64 ≤ n * size := by omega
    have h1 : n * size % W64 ≤ n * size - W64 := by
      rw [Nat.mod_eq_sub_mod hge]; exact Nat.mod_le _ _
    have h2 : n * size % W64 < n * size - n := by omega
    have h3 : n * size % W64 / n < size := by
      rw [Nat.div_lt_iff_lt_mul (by omega)]
      rw [Nat.mul_comm size n]; omega
    omega
  · intro h
    rw [Nat.mod_eq_of_lt h, Nat.mul_div_cancel_left _ (by omega)]

theorem calloc_spec {h : Heap} {L F : List Nat} (hi : Inv h L F) {n size : Nat}
    (hn : n < W64) :
    ∃ h' r, calloc h n size = some (h', r) ∧
      (r = 0 → h' = h) ∧
      (r = 0 ↔ n = 0 ∨ size = 0 ∨ n * size > W64 - 8 ∨
        ∀ a ∈ L, (h.hdr a).alloc = 0 → (h.hdr a).size < roundUp (n * size)) ∧
      (r ≠ 0 → ∃ cur L' F', r = cur + 64 ∧ cur ∈ L ∧ (h.hdr cur).alloc = 0 ∧ Inv h' L' F' ∧
        Took h h' L L' cur (n * size)) := by
  have hb := hi.buf0
  have hf : h.first ≠ 0 := by rw [hi.first]; exact hb
  unfold calloc
  rw [if_neg (by simp [hb, hf])]
  dsimp only
  by_cases h0 : n = 0 ∨ size = 0
  · rw [if_pos (by grind)]
    exact ⟨h, 0, rfl, by simp, by grind, by simp⟩
  have hn0 : n ≠ 0 := by grind
  have hs0 : size ≠ 0 := by grind
  by_cases h1 : n * size < W64
  swap
  · rw [if_pos (by have := (overflow_check (size := size) hn hn0).not.2 h1; grind)]
    refine ⟨h, 0, rfl, by simp, ?_, by simp⟩
    simp only [true_iff]; right; right; left; omega
  rw [if_neg (by have := (overflow_check (size := size) hn hn0).2 h1; grind)]
  rw [Nat.mod_eq_of_lt h1]
  by_cases h2 : n * size > W64 - alignMult
  · rw [if_pos h2]
    exact ⟨h, 0, rfl, by simp, by simp only [true_iff]; right; right; left; exact h2, by simp⟩
  rw [if_neg h2]
  obtain ⟨r, hr, hr'⟩ := hi.search (roundUp (n * size)) F (h.len + 1) 0 (fun b hb => hb) hi.fseg
    (by have := hi.flength; omega)
  have hnf : h.nf 0 = h.firstFree := by simp [Heap.nf]
  rw [hnf] at hr
  simp only [hr, Option.bind_eq_bind, Option.bind_some]
  have hpos : 0 < n * size := Nat.mul_pos (by omega) (by omega)
  have hru := roundUp_spec (n * size)
  by_cases hr0 : r = 0
  · rw [if_pos hr0]
    refine ⟨h, 0, rfl, by simp, ?_, by simp⟩
    simp only [true_iff]; right; right; right
    intro a ha h0
    rcases hr' with ⟨_, h3⟩ | ⟨h3, _⟩
    · exact h3 a ((hi.fmem a).2 ⟨ha, h0⟩)
    · exact absurd hr0 (hi.fseg.ne_zero h3)
  · rw [if_neg hr0]
    obtain ⟨hrF, hrs⟩ := hr'.resolve_left (fun h => hr0 h.1)
    have hra := ((hi.fmem r).1 hrF).2
    have hrL := ((hi.fmem r).1 hrF).1
    simp only [hra, beq_self_eq_true, need_true, Option.bind_some]
    have hiff : r + 64 = 0 ↔ n = 0 ∨ size = 0 ∨ n * size > W64 - 8 ∨
        ∀ a ∈ L, (h.hdr a).alloc = 0 → (h.hdr a).size < roundUp (n * size) := by
      constructor
      · intro h; omega
      · rintro (h3 | h3 | h3 | h3)
        · exact absurd h3 hn0
        · exact absurd h3 hs0
        · exact absurd h3 h2
        · have := h3 r hrL hra; omega
    by_cases hsplit : (h.hdr r).size - roundUp (n * size) < hsize + alignMult
    · rw [if_pos hsplit]
      obtain ⟨h', F', e1, e2, e3⟩ := takeWhole_spec (orig := n * size) hi hrF (by omega) hpos
      exact ⟨h', r + 64, e1, by simp, hiff, fun _ => ⟨r, L, F', rfl, hrL, hra, e2, e3⟩⟩
    · rw [if_neg hsplit]
      obtain ⟨h', L', F', e1, e2, e3⟩ := takeSplit_spec (orig := n * size)
        (len := roundUp (n * size)) hi hrF hru.1 (by simp only [hsize, alignMult] at hsplit; omega)
        hru.2.1
      exact ⟨h', r + 64, e1, by simp, hiff, fun _ => ⟨r, L', F', rfl, hrL, hra, e2, e3⟩⟩

end Verif.Heap
