import Verif.Heap.Inv

/-! Allocation preserves the invariant.  Helper lemmas only. -/

namespace Verif.Heap

theorem Base.mem_ne {h : Heap} {L : List Nat} (hi : Base h L) {a : Nat} (ha : a ∈ L) : a ≠ 0 :=
  hi.seg.ne_zero ha

theorem Base.nodup {h : Heap} {L : List Nat} (hi : Base h L) : L.Nodup := hi.tile.nodup

theorem Base.ok_nx {h : Heap} {L : List Nat} (hi : Base h L) {a : Nat} (ha : a ∈ L) :
    h.nx a = 0 ∨ h.nx a ∈ L := by
  obtain ⟨A, B, rfl⟩ := List.append_of_mem ha
  have := (Seg.append.1 hi.seg).2.2.head_mem
  grind

theorem Base.ok_pv {h : Heap} {L : List Nat} (hi : Base h L) {a : Nat} (ha : a ∈ L) :
    h.pv a = 0 ∨ h.pv a ∈ L := by
  obtain ⟨A, B, rfl⟩ := List.append_of_mem ha
  have h1 := Seg.append.1 hi.seg
  have := h1.1.last_mem h1.2.1
  grind

theorem Inv.ok_nf {h : Heap} {L F : List Nat} (hi : Inv h L F) {a : Nat} (ha : a ∈ F) :
    h.nf a = 0 ∨ h.nf a ∈ F := by
  obtain ⟨A, B, rfl⟩ := List.append_of_mem ha
  have := (Seg.append.1 hi.fseg).2.2.head_mem
  grind

theorem Inv.ok_pf {h : Heap} {L F : List Nat} (hi : Inv h L F) {a : Nat} (ha : a ∈ F) :
    h.pf a = 0 ∨ h.pf a ∈ F := by
  obtain ⟨A, B, rfl⟩ := List.append_of_mem ha
  have h1 := Seg.append.1 hi.fseg
  have := h1.1.last_mem h1.2.1
  grind

theorem okPtr_iff {h : Heap} {p : Nat} : okPtr h p = true ↔ p = 0 ∨ h.dom p = true := by
  simp [okPtr]

/-- The heap after a block has been used whole, before the contents are zeroed. -/
def wholeHeap (h : Heap) (cur : Nat) : Heap :=
  let pf := (h.hdr cur).prevFree
  let nf := (h.hdr cur).nextFree
  (((h.wr cur fun x => { x with alloc := 1 }).setNf pf nf).setPf nf pf).wr cur
    fun x => { x with prevFree := 0, nextFree := 0 }

theorem whole_inv {h : Heap} {L F : List Nat} {cur : Nat} (hi : Inv h L F) (hc : cur ∈ F) :
    ∃ F', Inv (wholeHeap h cur) L F' := by
  have hcL := ((hi.fmem cur).1 hc).1
  have hc0 := hi.mem_ne hcL
  have hfn : ∀ a ∈ F, a ≠ 0 := fun a ha => hi.fseg.ne_zero ha
  obtain ⟨A, B, rfl⟩ := List.append_of_mem hc
  have hnd := hi.fnd
  have hs := Seg.append.1 hi.fseg
  have hp := hs.1.last_mem hs.2.1
  have hn := hs.2.2.head_mem
  simp only [Heap.nf, Heap.pf, if_neg hc0] at hp hn
  have h1 : (h.hdr cur).prevFree ≠ cur := by grind
  have h2 : (h.hdr cur).nextFree ≠ cur := by grind
  have hff : (wholeHeap h cur).firstFree =
      if (h.hdr cur).prevFree = 0 then (h.hdr cur).nextFree else h.firstFree := by
    simp [wholeHeap]
  have hd : (wholeHeap h cur).dom = h.dom := by simp [wholeHeap]
  have hb : (wholeHeap h cur).buf = h.buf := by simp [wholeHeap]
  have hl : (wholeHeap h cur).len = h.len := by simp [wholeHeap]
  have hf : (wholeHeap h cur).first = h.first := by simp [wholeHeap]
  have hsz : ∀ a, ((wholeHeap h cur).hdr a).size = (h.hdr a).size := by
    intro a; unfold wholeHeap; heap_simp; grind
  have hm1 : ∀ a, ((wholeHeap h cur).hdr a).magic1 = (h.hdr a).magic1 := by
    intro a; unfold wholeHeap; heap_simp; grind
  have hm2 : ∀ a, ((wholeHeap h cur).hdr a).magic2 = (h.hdr a).magic2 := by
    intro a; unfold wholeHeap; heap_simp; grind
  have hpr : ∀ a, ((wholeHeap h cur).hdr a).prev = (h.hdr a).prev := by
    intro a; unfold wholeHeap; heap_simp; grind
  have hne : ∀ a, ((wholeHeap h cur).hdr a).next = (h.hdr a).next := by
    intro a; unfold wholeHeap; heap_simp; grind
  have hal : ∀ a, ((wholeHeap h cur).hdr a).alloc = if a = cur then 1 else (h.hdr a).alloc := by
    intro a; unfold wholeHeap; heap_simp; grind
  have hnf : ∀ a, (wholeHeap h cur).nf a = if a = 0 then (if h.pf cur = 0 then h.nf cur else h.nf 0) else
      if a = cur then 0 else if a = h.pf cur then h.nf cur else h.nf a := by
    intro a; simp only [Heap.nf, Heap.pf]; unfold wholeHeap; heap_simp; grind
  have hpf : ∀ a, (wholeHeap h cur).pf a = if a = cur then 0 else
      if a = h.nf cur ∧ a ≠ 0 then h.pf cur else h.pf a := by
    intro a; simp only [Heap.nf, Heap.pf]; unfold wholeHeap; heap_simp; grind
  generalize wholeHeap h cur = g at *
  have hnx : g.nx = h.nx := by funext a; simp only [Heap.nx, hf, hne]
  have hpv : g.pv = h.pv := by funext a; simp only [Heap.pv, hpr]
  refine ⟨A ++ B, ⟨⟨?_, ?_, ?_, ?_, hi.ne, ?_, ?_, ?_, ?_⟩, ?_, ?_, ?_, ?_, ?_⟩⟩
  · rw [hb]; exact hi.buf0
  · rw [hb, hl]; exact hi.end64
  · rw [hb, hf]; exact hi.first
  · rw [hb, hl]; exact hi.tile.congr (fun x _ => hsz x)
  · rw [hnx, hpv]; exact hi.seg
  · rw [hd]; exact hi.dom
  · intro a ha; rw [hal]; have := hi.alloc a ha; grind
  · intro a ha; rw [hm1, hm2]; exact hi.magic a ha
  · refine hi.fseg.remove hi.fnd ?_ ?_ ?_ ?_
    · rw [hnf]; simp only [Heap.pf, Heap.nf, if_neg hc0]; grind
    · intro hne; rw [hpf]; simp only [Heap.nf, if_neg hc0] at hne ⊢; grind
    · intro b hb hbn; rw [hnf]; simp only [Heap.pf] at hbn ⊢; grind
    · intro b hb hbn; rw [hpf]; simp only [Heap.nf, if_neg hc0] at hbn ⊢; grind
  · grind
  · intro a
    rw [hal]
    have := hi.fmem a
    grind
  · intro a ha h1'
    rw [hal] at h1'
    rw [hnf, hpf]
    have ha0 := hi.mem_ne ha
    have := hi.fzero a ha
    have h3 := hi.fmem a
    simp only [Heap.nf, Heap.pf, if_neg hc0, if_neg ha0] at *
    grind
  · intro a ha h0 hn'
    rw [hal] at h0
    rw [hal]
    have := hi.adj a ha
    rw [hnx] at *
    grind

/-- The heap after a block has been split, before the contents are zeroed. -/
def splitHeap (h : Heap) (cur len : Nat) : Heap :=
  let new := cur + 64 + len
  let c := h.hdr cur
  let h := { h with dom := upd h.dom new true }
  let h := h.wr new fun x =>
    { x with size := c.size - len - 64, alloc := 0, prev := cur,
             next := c.next, magic1 := MAGIC1, magic2 := MAGIC2 }
  let h := h.setPrev c.next new
  let h := h.wr new fun x => { x with prevFree := c.prevFree, nextFree := c.nextFree }
  let h := h.setNf c.prevFree new
  let h := h.setPf c.nextFree new
  h.wr cur fun x => { x with alloc := 1, size := len, next := new, prevFree := 0, nextFree := 0 }

theorem split_inv {h : Heap} {L F : List Nat} {cur len : Nat} (hi : Inv h L F) (hc : cur ∈ F)
    (hlen : len + 72 ≤ (h.hdr cur).size) (h8 : len % 8 = 0) :
    ∃ L' F', Inv (splitHeap h cur len) L' F' ∧ cur + 64 + len ∉ L ∧
      (∀ a, a ∈ L' ↔ a ∈ L ∨ a = cur + 64 + len) := by
  have hcL := ((hi.fmem cur).1 hc).1
  have hcA := ((hi.fmem cur).1 hc).2
  have hc0 := hi.mem_ne hcL
  have hfn : ∀ a ∈ F, a ≠ 0 := fun a ha => hi.fseg.ne_zero ha
  have hln : ∀ a ∈ L, a ≠ 0 := fun a ha => hi.mem_ne ha
  have hnew : cur + 64 + len ∉ L := by
    intro hm
    have := hi.tile.disjoint hcL hm (by omega)
    omega
  have hnF : cur + 64 + len ∉ F := fun hm => hnew ((hi.fmem _).1 hm).1
  obtain ⟨C, D, rfl⟩ := List.append_of_mem hc
  obtain ⟨A, B, hL⟩ := List.append_of_mem hcL
  have hfmem := hi.fmem
  have hfnd := hi.fnd
  have hnd := hi.nodup
  have hs := Seg.append.1 hi.fseg
  have hp := hs.1.last_mem hs.2.1
  have hn := hs.2.2.head_mem
  have hbn := hi.ok_nx hcL
  have hbp := hi.ok_pv hcL
  simp only [Heap.nf, Heap.pf, if_neg hc0] at hp hn
  simp only [Heap.nx, if_neg hc0] at hbn
  have h1 : (h.hdr cur).prevFree ≠ cur := by grind
  have h2 : (h.hdr cur).nextFree ≠ cur := by grind
  have h3 : (h.hdr cur).next ≠ cur := by
    intro he
    have := (Seg.append.1 (hL ▸ hi.seg)).2.2.head_mem
    simp only [Heap.nx, if_neg hc0] at this
    grind
  have h4 : (h.hdr cur).prevFree ≠ cur + 64 + len := by grind
  have h5 : (h.hdr cur).nextFree ≠ cur + 64 + len := by grind
  have h6 : (h.hdr cur).next ≠ cur + 64 + len := by grind
  have hb : (splitHeap h cur len).buf = h.buf := by simp [splitHeap]
  have hl : (splitHeap h cur len).len = h.len := by simp [splitHeap]
  have hf : (splitHeap h cur len).first = h.first := by simp [splitHeap]
  have hd : (splitHeap h cur len).dom = upd h.dom (cur + 64 + len) true := by simp [splitHeap]
  have hsz : ∀ a, ((splitHeap h cur len).hdr a).size = if a = cur then len else
      if a = cur + 64 + len then (h.hdr cur).size - len - 64 else (h.hdr a).size := by
    intro a; unfold splitHeap; heap_simp; grind
  have hm1 : ∀ a, ((splitHeap h cur len).hdr a).magic1 =
      if a = cur + 64 + len then MAGIC1 else (h.hdr a).magic1 := by
    intro a; unfold splitHeap; heap_simp; grind
  have hm2 : ∀ a, ((splitHeap h cur len).hdr a).magic2 =
      if a = cur + 64 + len then MAGIC2 else (h.hdr a).magic2 := by
    intro a; unfold splitHeap; heap_simp; grind
  have hal : ∀ a, ((splitHeap h cur len).hdr a).alloc = if a = cur then 1 else
      if a = cur + 64 + len then 0 else (h.hdr a).alloc := by
    intro a; unfold splitHeap; heap_simp; grind
  have hnx : ∀ a, (splitHeap h cur len).nx a = if a = cur then cur + 64 + len else
      if a = cur + 64 + len then h.nx cur else h.nx a := by
    intro a; simp only [Heap.nx]; unfold splitHeap; heap_simp; grind
  have hpv : ∀ a, (splitHeap h cur len).pv a = if a = cur + 64 + len then cur else
      if a = h.nx cur ∧ a ≠ 0 then cur + 64 + len else h.pv a := by
    intro a; simp only [Heap.nx, Heap.pv]; unfold splitHeap; heap_simp; grind
  have hnf : ∀ a, (splitHeap h cur len).nf a = if a = cur then 0 else
      if a = cur + 64 + len then h.nf cur else
      if a = h.pf cur then cur + 64 + len else h.nf a := by
    intro a; simp only [Heap.nf, Heap.pf]; unfold splitHeap; heap_simp; grind
  have hpf : ∀ a, (splitHeap h cur len).pf a = if a = cur then 0 else
      if a = cur + 64 + len then h.pf cur else
      if a = h.nf cur ∧ a ≠ 0 then cur + 64 + len else h.pf a := by
    intro a; simp only [Heap.nf, Heap.pf]; unfold splitHeap; heap_simp; grind
  generalize splitHeap h cur len = g at *
  refine ⟨A ++ cur :: (cur + 64 + len) :: B, C ++ (cur + 64 + len) :: D,
    ⟨⟨?_, ?_, ?_, ?_, by simp, ?_, ?_, ?_, ?_⟩, ?_, ?_, ?_, ?_, ?_⟩, hnew, ?_⟩
  · rw [hb]; exact hi.buf0
  · rw [hb, hl]; exact hi.end64
  · rw [hb, hf]; exact hi.first
  · rw [hb, hl]
    have hct := (Tile.append.1 (hL ▸ hi.tile)).2.1
    refine Tile.split (sz := fun a => (h.hdr a).size) (hL ▸ hi.tile) ?_ (by omega) ?_ ?_
    · simp [hsz]
    · simp only [hsz, if_true]; rw [if_neg (by omega)]; omega
    · intro b hb; simp only [hsz]; grind
  · refine Seg.insert (hL ▸ hi.seg) (hL ▸ hnd) (hL ▸ hnew) (by omega) ?_ ?_ ?_ ?_ ?_ ?_
    · rw [hnx, if_pos rfl]
    · rw [hpv, if_pos rfl]
    · rw [hnx]; grind
    · intro h0; rw [hpv]; simp only [Heap.nx, if_neg hc0] at h0 ⊢; grind
    · intro b hb; rw [hnx]; grind
    · intro b hb hbn; rw [hpv]; simp only [Heap.nx, if_neg hc0] at hbn ⊢; grind
  · intro a; rw [hd]; have := hi.dom a; simp only [upd]; grind
  · intro a ha; rw [hal]; have := hi.alloc a; grind
  · intro a ha; have := hi.magic a; rw [hm1, hm2]; grind
  · refine hi.fseg.replace hi.fnd (by grind) (by omega) ?_ ?_ ?_ ?_ ?_ ?_
    · rw [hnf]; simp only [Heap.pf]; grind
    · rw [hpf]; grind
    · rw [hnf]; grind
    · intro hne; rw [hpf]; simp only [Heap.nf, if_neg hc0] at hne ⊢; grind
    · intro b hb hbn; rw [hnf]; simp only [Heap.pf] at hbn ⊢; grind
    · intro b hb hbn; rw [hpf]; simp only [Heap.nf, if_neg hc0] at hbn ⊢; grind
  · grind
  · intro a
    rw [hal]
    have := hi.fmem a
    grind
  · intro a ha h1'
    rw [hal] at h1'
    rw [hnf, hpf]
    by_cases hac : a = cur
    · simp [hac]
    have haN : a ≠ cur + 64 + len := by rintro rfl; simp [hac] at h1'
    have haL : a ∈ L := by grind
    have h1a : (h.hdr a).alloc = 1 := by simpa [hac, haN] using h1'
    have hz := hi.fzero a haL h1a
    have hF : a ∉ C ++ cur :: D := fun hm => by have := ((hi.fmem a).1 hm).2; omega
    have ha0 := hi.mem_ne haL
    rw [if_neg hac, if_neg haN, if_neg hac, if_neg haN, if_neg, if_neg]
    · exact hz
    · simp only [Heap.nf, if_neg hc0]; grind
    · simp only [Heap.pf]; grind
  · intro a ha h0 hn'
    rw [hal] at h0
    by_cases hac : a = cur
    · simp [hac] at h0
    rw [hal]
    by_cases haN : a = cur + 64 + len
    · subst haN
      rw [hnx, if_neg hac, if_pos rfl] at hn' ⊢
      have := hi.adj cur hcL hcA hn'
      simp only [Heap.nx, if_neg hc0] at this ⊢
      rw [if_neg h3, if_neg h6]
      exact this
    · have haL : a ∈ L := by grind
      rw [hnx, if_neg hac, if_neg haN] at hn' ⊢
      rw [if_neg hac, if_neg haN] at h0
      have hl1 := hi.adj a haL h0 hn'
      have hne : h.nx a ≠ cur + 64 + len := by
        intro he; rcases hi.ok_nx haL with hz | hz
        · omega
        · exact hnew (he ▸ hz)
      rw [if_neg hne]
      split
      · rfl
      · exact hl1
  · intro a; grind

end Verif.Heap
