import Verif.Heap.Calloc

/-! Freeing preserves the invariant.  Helper lemmas only. -/

namespace Verif.Heap

/-- The state in the middle of `free`: block `x` is marked free, may or may not be in
the free list, and may have a free neighbour (`both` says whether the previous one
is still to be looked at). -/
structure Mid (h : Heap) (L F : List Nat) (x : Nat) (both : Prop) : Prop extends Base h L where
  fseg : Seg h.nf h.pf 0 F 0
  fnd : F.Nodup
  xL : x ∈ L
  x0 : (h.hdr x).alloc = 0
  fsub : ∀ a ∈ F, a ∈ L ∧ (h.hdr a).alloc = 0
  fall : ∀ a ∈ L, (h.hdr a).alloc = 0 → a ≠ x → a ∈ F
  fz : ∀ a ∈ L, a ∉ F → h.nf a = 0 ∧ h.pf a = 0
  adj : ∀ a ∈ L, (h.hdr a).alloc = 0 → h.nx a ≠ 0 → (h.hdr (h.nx a)).alloc = 0 →
    a = x ∨ (both ∧ h.nx a = x)

/-- What a step of `free` leaves alone. -/
structure Kept (h h' : Heap) (L L' : List Nat) : Prop where
  buf : h'.buf = h.buf
  len : h'.len = h.len
  va : h'.verifyAlloc = h.verifyAlloc
  vf : h'.verifyFree = h.verifyFree
  sub : ∀ a ∈ L', a ∈ L
  used : ∀ a ∈ L, (h.hdr a).alloc = 1 → a ∈ L'
  alloc : ∀ a ∈ L', (h'.hdr a).alloc = (h.hdr a).alloc
  size : ∀ a ∈ L', (h.hdr a).alloc = 1 → (h'.hdr a).size = (h.hdr a).size
  mem : ∀ b, h'.mem b = h.mem b ∨ ∃ a ∈ L, a ≤ b ∧ b < a + 64

theorem Kept.trans {h1 h2 h3 : Heap} {L1 L2 L3 : List Nat} (k1 : Kept h1 h2 L1 L2)
    (k2 : Kept h2 h3 L2 L3) : Kept h1 h3 L1 L3 := by
  refine ⟨k2.buf.trans k1.buf, k2.len.trans k1.len, k2.va.trans k1.va, k2.vf.trans k1.vf,
    fun a ha => k1.sub a (k2.sub a ha), ?_, ?_, ?_, ?_⟩
  · intro a ha h1
    have h2 := k1.used a ha h1
    exact k2.used a h2 (by rw [k1.alloc a h2]; exact h1)
  · intro a ha
    rw [k2.alloc a ha, k1.alloc a (k2.sub a ha)]
  · intro a ha h1
    have h2 := k1.alloc a (k2.sub a ha)
    rw [k2.size a ha (by rw [h2]; exact h1), k1.size a (k2.sub a ha) h1]
  · intro b
    rcases k2.mem b with h | ⟨a, ha, h⟩
    · rw [h]; exact k1.mem b
    · exact Or.inr ⟨a, k1.sub a ha, h⟩

theorem Kept.refl (h : Heap) (L : List Nat) : Kept h h L L :=
  ⟨rfl, rfl, rfl, rfl, fun _ h => h, fun _ h _ => h, fun _ _ => rfl, fun _ _ _ => rfl,
    fun _ => Or.inl rfl⟩

/-- Marking the block free. -/
theorem mark_mid {h : Heap} {L F : List Nat} (hi : Inv h L F) {x : Nat} (hx : x ∈ L)
    (h1 : (h.hdr x).alloc = 1) :
    Mid (h.wr x fun y => { y with alloc := 0 }) L F x True ∧ x ∉ F := by
  have hxF : x ∉ F := fun hm => by have := ((hi.fmem x).1 hm).2; omega
  have hnx : (h.wr x fun y => { y with alloc := 0 }).nx = h.nx := by
    funext a; simp only [Heap.nx]; heap_simp; grind
  have hpv : (h.wr x fun y => { y with alloc := 0 }).pv = h.pv := by
    funext a; simp only [Heap.pv]; heap_simp; grind
  have hnf : (h.wr x fun y => { y with alloc := 0 }).nf = h.nf := by
    funext a; simp only [Heap.nf]; heap_simp; grind
  have hpf : (h.wr x fun y => { y with alloc := 0 }).pf = h.pf := by
    funext a; simp only [Heap.pf]; heap_simp; grind
  have hsz : ∀ a, ((h.wr x fun y => { y with alloc := 0 }).hdr a).size = (h.hdr a).size := by
    intro a; heap_simp; grind
  have hm1 : ∀ a, ((h.wr x fun y => { y with alloc := 0 }).hdr a).magic1 = (h.hdr a).magic1 := by
    intro a; heap_simp; grind
  have hm2 : ∀ a, ((h.wr x fun y => { y with alloc := 0 }).hdr a).magic2 = (h.hdr a).magic2 := by
    intro a; heap_simp; grind
  have hal : ∀ a, ((h.wr x fun y => { y with alloc := 0 }).hdr a).alloc =
      if a = x then 0 else (h.hdr a).alloc := by
    intro a; heap_simp
  refine ⟨⟨⟨hi.buf0, hi.end64, hi.first, hi.tile.congr (fun a _ => hsz a), hi.ne, ?_, hi.dom, ?_, ?_⟩,
    ?_, hi.fnd, hx, by rw [hal, if_pos rfl], ?_, ?_, ?_, ?_⟩, hxF⟩
  · rw [hnx, hpv]; exact hi.seg
  · intro a ha; rw [hal]; have := hi.alloc a ha; grind
  · intro a ha; rw [hm1, hm2]; exact hi.magic a ha
  · rw [hnf, hpf]; exact hi.fseg
  · intro a ha; rw [hal]; have := hi.fmem a; grind
  · intro a ha; rw [hal]; have := hi.fmem a; grind
  · intro a ha hF
    rw [hnf, hpf]
    have h2 := hi.fmem a
    have h3 := hi.alloc a ha
    exact hi.fzero a ha (by grind)
  · intro a ha
    rw [hal, hnx, hal]
    have := hi.adj a ha
    grind

/-- The heap after merging `x` into the free block `p` before it. -/
def prevHeap (h : Heap) (x : Nat) : Heap :=
  let p := (h.hdr x).prev
  let h1 := h.wr p fun y =>
    { y with size := y.size + 64 + (h.hdr x).size, next := (h.hdr x).next }
  (h1.setPrev (h.hdr x).next p).erase x

theorem prev_mid {h : Heap} {L F : List Nat} {x : Nat} (hi : Mid h L F x True) (hxF : x ∉ F)
    (hp0 : h.pv x ≠ 0) (hpa : (h.hdr (h.pv x)).alloc = 0) :
    ∃ L', Mid (prevHeap h x) L' F (h.pv x) False ∧ h.pv x ∈ F ∧ Kept h (prevHeap h x) L L' := by
  obtain ⟨A, B, hL⟩ := hi.seg.split_prev hi.xL hp0
  have hxL := hi.xL
  have hx0 := hi.mem_ne hxL
  have hnd := hi.nodup
  have hpL : h.pv x ∈ L := by rw [hL]; simp
  have hpx : h.pv x ≠ x := (hi.seg.pv_ne_self hnd hxL).1
  have hpF : h.pv x ∈ F := hi.fall _ hpL hpa hpx
  have hnn := hi.seg.pv_ne_nx hnd hxL
  have hnp : h.nx (h.pv x) = x := (hL ▸ hi.seg : Seg _ _ 0 (A ++ _ :: _ :: B) 0).neighbours.1
  have hnx' := (hi.seg.pv_ne_self hnd hxL).2
  have hokn := hi.ok_nx hxL
  have hb : (prevHeap h x).buf = h.buf := by simp [prevHeap]
  have hl : (prevHeap h x).len = h.len := by simp [prevHeap]
  have hf : (prevHeap h x).first = h.first := by simp [prevHeap]
  have hva : (prevHeap h x).verifyAlloc = h.verifyAlloc := by simp [prevHeap]
  have hvf : (prevHeap h x).verifyFree = h.verifyFree := by simp [prevHeap]
  have hd : ∀ a, (prevHeap h x).dom a = if a = x then false else h.dom a := by
    intro a; simp [prevHeap]
  have hsz : ∀ a, ((prevHeap h x).hdr a).size = if a = x then 0 else
      if a = h.pv x then (h.hdr (h.pv x)).size + 64 + (h.hdr x).size else (h.hdr a).size := by
    intro a; simp only [Heap.pv]; unfold prevHeap; heap_simp; rfl
  have hal : ∀ a, ((prevHeap h x).hdr a).alloc = if a = x then 0 else (h.hdr a).alloc := by
    intro a; unfold prevHeap; heap_simp; grind
  have hm1 : ∀ a, ((prevHeap h x).hdr a).magic1 = if a = x then 0 else (h.hdr a).magic1 := by
    intro a; unfold prevHeap; heap_simp; grind
  have hm2 : ∀ a, ((prevHeap h x).hdr a).magic2 = if a = x then 0 else (h.hdr a).magic2 := by
    intro a; unfold prevHeap; heap_simp; grind
  have hnf : ∀ a, (prevHeap h x).nf a = if a = x then 0 else h.nf a := by
    intro a; simp only [Heap.nf]; unfold prevHeap; heap_simp; grind
  have hpf : ∀ a, (prevHeap h x).pf a = if a = x then 0 else h.pf a := by
    intro a; simp only [Heap.pf]; unfold prevHeap; heap_simp; grind
  have hnx : ∀ a, (prevHeap h x).nx a = if a = x then 0 else
      if a = h.pv x then h.nx x else h.nx a := by
    intro a; simp only [Heap.nx, Heap.pv] at hp0 ⊢; unfold prevHeap; heap_simp; grind
  have hpv : ∀ a, (prevHeap h x).pv a = if a = x then 0 else
      if a = h.nx x ∧ a ≠ 0 then h.pv x else h.pv a := by
    intro a; simp only [Heap.nx, Heap.pv, if_neg hx0]; unfold prevHeap; heap_simp; grind
  have hmem : ∀ b, (prevHeap h x).mem b = h.mem b ∨ ∃ a ∈ L, a ≤ b ∧ b < a + 64 := by
    intro b
    by_cases hin : ∃ a ∈ L, a ≤ b ∧ b < a + 64
    · exact Or.inr hin
    · left
      simp only [not_exists, not_and] at hin
      have i1 := hin x hxL
      have i2 := hin _ hpL
      have i3 : h.nx x ≠ 0 → _ := fun hne => hin (h.nx x) (hokn.resolve_left hne)
      simp only [Heap.pv, Heap.nx, if_neg hx0] at i2 i3
      simp only [prevHeap, wr_mem, setPrev_mem, erase_mem]
      split <;> simp only [fill] <;> grind
  have hsizes := fun a (ha : a ∈ L) => hi.tile.bounds.2 a ha
  generalize prevHeap h x = g at *
  have hmemL : ∀ a, a ∈ A ++ h.pv x :: B ↔ a ∈ L ∧ a ≠ x := by
    intro a; rw [hL] at hnd ⊢; grind
  refine ⟨A ++ h.pv x :: B, ⟨⟨?_, ?_, ?_, ?_, by simp, ?_, ?_, ?_, ?_⟩, ?_, hi.fnd, by simp, ?_, ?_,
    ?_, ?_, ?_⟩, hpF, ⟨hb, hl, hva, hvf, ?_, ?_, ?_, ?_, hmem⟩⟩
  · rw [hb]; exact hi.buf0
  · rw [hb, hl]; exact hi.end64
  · rw [hb, hf]; exact hi.first
  · rw [hb, hl]
    refine Tile.merge (sz := fun a => (h.hdr a).size) (hL ▸ hi.tile) ?_ ?_
    · simp only [hsz]; grind
    · intro b hb; simp only [hsz]; rw [hL] at hnd; grind
  · have hs := hi.seg
    rw [hL] at hs hnd
    have := Seg.remove (A := A ++ [h.pv x]) (x := x) (B := B) (nx := h.nx) (pv := h.pv)
      (nx' := g.nx) (pv' := g.pv) (by simpa using hs) (by simpa using hnd) ?_ ?_ ?_ ?_
    · simpa using this
    · rw [hnx]; grind
    · intro hne; rw [hpv]; grind
    · intro b hb hbn; rw [hnx]; grind
    · intro b hb hbn; rw [hpv]; grind
  · intro a; rw [hd, hmemL]; have := hi.dom a; grind
  · intro a ha; rw [hal]; have := hi.alloc a; grind
  · intro a ha; rw [hm1, hm2]; have := hi.magic a; grind
  · refine hi.fseg.congr ?_ ?_
    · intro a ha; rw [hnf]; grind
    · intro a ha _; rw [hpf]; grind
  · rw [hal, if_neg hpx]; exact hpa
  · intro a ha; rw [hmemL, hal]; have := hi.fsub a ha; grind
  · intro a ha; rw [hal]; have := hi.fall a; grind
  · intro a ha hF; rw [hnf, hpf]; have := hi.fz a; grind
  · intro a ha h0 hn0 hn1
    left
    have hax : a ≠ x := ((hmemL a).1 ha).2
    have haL := ((hmemL a).1 ha).1
    by_contra hap
    rw [hnx, if_neg hax, if_neg hap] at hn0 hn1
    rw [hal, if_neg hax] at h0
    rw [hal] at hn1
    have hz : h.nx a ≠ x := by
      intro he
      obtain ⟨C, D, hL2⟩ := hi.seg.split_next haL hn0
      have := (hL2 ▸ hi.seg : Seg _ _ 0 (C ++ _ :: _ :: D) 0).neighbours.2.1
      rw [he] at this
      exact hap this.symm
    rw [if_neg hz] at hn1
    rcases hi.adj a haL h0 hn0 hn1 with h | ⟨_, h⟩
    · exact hax h
    · exact hz h
  · intro a ha; exact ((hmemL a).1 ha).1
  · intro a ha h1; exact (hmemL a).2 ⟨ha, fun h => by rw [h, hi.x0] at h1; omega⟩
  · intro a ha; rw [hal, if_neg ((hmemL a).1 ha).2]
  · intro a ha h1
    rw [hsz, if_neg ((hmemL a).1 ha).2, if_neg]
    intro h; rw [h, hpa] at h1; omega

/-- Taking `x` out of the free list when it is in it. -/
def unlinkIf (h : Heap) (x : Nat) : Heap :=
  if (h.hdr x).prevFree ≠ 0 ∨ (h.hdr x).nextFree ≠ 0 then
    (h.setNf (h.hdr x).prevFree (h.hdr x).nextFree).setPf (h.hdr x).nextFree (h.hdr x).prevFree
  else h

/-- `x` takes the place of `n` in the free list and `n`, followed by `w`, disappears. -/
def absorb (h : Heap) (x n w : Nat) : Heap :=
  let h3 := h.wr x fun y =>
    { y with prevFree := (h.hdr n).prevFree, nextFree := (h.hdr n).nextFree }
  let h4 := h3.setNf (h.hdr n).prevFree x
  let h5 := h4.setPf (h.hdr n).nextFree x
  let h6 := h5.setPrev w x
  h6.erase n

/-- The heap after merging the free block after `x` into `x`. -/
def nextHeap (h : Heap) (x : Nat) : Heap :=
  let n := (h.hdr x).next
  let h1 := h.wr x fun y => { y with size := y.size + 64 + (h.hdr n).size, next := (h.hdr n).next }
  absorb (unlinkIf h1 x) x n (h.hdr n).next

theorem next_inv {h : Heap} {L F : List Nat} {x : Nat} (hi : Mid h L F x False)
    (hn0 : h.nx x ≠ 0) (hna : (h.hdr (h.nx x)).alloc = 0) :
    ∃ L' F', Inv (nextHeap h x) L' F' ∧ Kept h (nextHeap h x) L L' := by
  have hxL := hi.xL
  obtain ⟨A, B, hL⟩ := hi.seg.split_next hxL hn0
  have hx0 := hi.mem_ne hxL
  have hnd := hi.nodup
  have hnL : h.nx x ∈ L := by rw [hL]; simp
  have hnx' := (hi.seg.pv_ne_self hnd hxL).2
  have hnF : h.nx x ∈ F := hi.fall _ hnL hna hnx'
  have hnn0 : h.nx x = (h.hdr x).next := by simp [Heap.nx, hx0]
  -- the list after `x` has been taken out
  let u := unlinkIf (h.wr x fun y =>
    { y with size := y.size + 64 + (h.hdr (h.nx x)).size, next := (h.hdr (h.nx x)).next }) x
  have key : ∃ F1, Seg u.nf u.pf 0 F1 0 ∧ F1.Nodup ∧ (∀ a, a ∈ F1 ↔ a ∈ F ∧ a ≠ x) ∧
      (∀ a ∈ L, a ∉ F → a ≠ x → u.nf a = 0 ∧ u.pf a = 0) := by
    by_cases hxF : x ∈ F
    · obtain ⟨C, D, hF⟩ := List.append_of_mem hxF
      have hfs := hi.fseg
      have hfnd := hi.fnd
      rw [hF] at hfs hfnd
      have hs := Seg.append.1 hfs
      have hp := hs.1.last_mem hs.2.1
      have hn := hs.2.2.head_mem
      have h1 : h.pf x ≠ 0 ∨ h.nf x ≠ 0 := by
        by_contra hcon
        have h2 : h.nf x = 0 := by by_contra h3; exact hcon (Or.inr h3)
        have h3 : h.pf x = 0 := by by_contra h3; exact hcon (Or.inl h3)
        have hC : C = [] := by
          cases C with
          | nil => rfl
          | cons c t =>
            have h4 := hs.1
            simp only [Seg] at h4
            have := h4.2.2.2.last_mem hx0
            have hc : ∀ a ∈ c :: t, a ≠ 0 := fun a ha => hs.1.ne_zero ha
            grind
        have hD : D = [] := by
          cases D with
          | nil => rfl
          | cons d t => have h4 := hs.2.2; simp only [Seg] at h4; grind
        rw [hF, hC, hD] at hnF
        simp at hnF
        exact hnx' hnF
      have hne := hi.fseg.pv_ne_self hi.fnd hxF
      simp only [Heap.pf, Heap.nf, if_neg hx0] at h1 hne hp hn
      have hunf : ∀ a, u.nf a = if a = h.pf x then h.nf x else h.nf a := by
        intro a; simp only [Heap.nf, Heap.pf, u, unlinkIf]; heap_simp
        simp only [if_true, if_pos h1]; heap_simp; grind
      have hupf : ∀ a, u.pf a = if a = h.nf x ∧ a ≠ 0 then h.pf x else h.pf a := by
        intro a; simp only [Heap.nf, Heap.pf, u, unlinkIf]; heap_simp
        simp only [if_true, if_pos h1]; heap_simp; grind
      refine ⟨C ++ D, ?_, by grind, by rw [hF]; intro a; grind, ?_⟩
      · refine hfs.remove hfnd ?_ ?_ ?_ ?_
        · rw [hunf, if_pos rfl]
        · intro h0; rw [hupf, if_pos ⟨rfl, h0⟩]
        · intro b hb hbn; rw [hunf, if_neg hbn]
        · intro b hb hbn; rw [hupf, if_neg (by grind)]
      · intro a ha haF hax
        rw [hunf, hupf]
        have hz := hi.fz a ha haF
        have ha0 := hi.mem_ne ha
        rw [if_neg, if_neg]
        · exact hz
        · simp only [Heap.nf, if_neg hx0]; rw [hF] at haF; grind
        · simp only [Heap.pf]; rw [hF] at haF; grind
    · have hz := hi.fz x hxL hxF
      simp only [Heap.pf, Heap.nf, if_neg hx0] at hz
      have hu : ¬((h.hdr x).prevFree ≠ 0 ∨ (h.hdr x).nextFree ≠ 0) := by simp [hz]
      have hunf : ∀ a, u.nf a = h.nf a := by
        intro a; simp only [Heap.nf, u, unlinkIf]; heap_simp
        simp only [if_true, if_neg hu]; heap_simp; grind
      have hupf : ∀ a, u.pf a = h.pf a := by
        intro a; simp only [Heap.pf, u, unlinkIf]; heap_simp
        simp only [if_true, if_neg hu]; heap_simp; grind
      refine ⟨F, hi.fseg.congr (fun a _ => hunf a) (fun a _ _ => hupf a), hi.fnd, ?_, ?_⟩
      · intro a
        exact ⟨fun ha => ⟨ha, fun he => hxF (he ▸ ha)⟩, fun ha => ha.1⟩
      · intro a ha haF _; rw [hunf, hupf]; exact hi.fz a ha haF
  -- `u` differs from `h` only in the free list, and in the size and next of `x`
  have usz : ∀ a, (u.hdr a).size = if a = x then (h.hdr x).size + 64 + (h.hdr (h.nx x)).size
      else (h.hdr a).size := by
    intro a; simp only [u, unlinkIf]; split <;> heap_simp
  have ual : ∀ a, (u.hdr a).alloc = (h.hdr a).alloc := by
    intro a; simp only [u, unlinkIf]; split <;> heap_simp <;> grind
  have um1 : ∀ a, (u.hdr a).magic1 = (h.hdr a).magic1 := by
    intro a; simp only [u, unlinkIf]; split <;> heap_simp <;> grind
  have um2 : ∀ a, (u.hdr a).magic2 = (h.hdr a).magic2 := by
    intro a; simp only [u, unlinkIf]; split <;> heap_simp <;> grind
  have upr : ∀ a, (u.hdr a).prev = (h.hdr a).prev := by
    intro a; simp only [u, unlinkIf]; split <;> heap_simp <;> grind
  have une : ∀ a, (u.hdr a).next = if a = x then (h.hdr (h.nx x)).next else (h.hdr a).next := by
    intro a; simp only [u, unlinkIf]; split <;> heap_simp
  have ub : u.buf = h.buf := by simp only [u, unlinkIf]; split <;> heap_simp
  have ul : u.len = h.len := by simp only [u, unlinkIf]; split <;> heap_simp
  have uf : u.first = h.first := by simp only [u, unlinkIf]; split <;> heap_simp
  have uva : u.verifyAlloc = h.verifyAlloc := by simp only [u, unlinkIf]; split <;> heap_simp
  have uvf : u.verifyFree = h.verifyFree := by simp only [u, unlinkIf]; split <;> heap_simp
  have ud : u.dom = h.dom := by simp only [u, unlinkIf]; split <;> heap_simp
  have umem : ∀ b, (∀ a ∈ L, ¬(a ≤ b ∧ b < a + 64)) → u.mem b = h.mem b := by
    intro b hin
    have i1 := hin x hxL
    have hxp : (h.hdr x).prevFree ≠ 0 → (h.hdr x).prevFree ∈ L := by
      intro h0
      by_cases hxF : x ∈ F
      · obtain ⟨C, D, hF⟩ := List.append_of_mem hxF
        have hs := Seg.append.1 (hF ▸ hi.fseg)
        have hp := hs.1.last_mem hs.2.1
        simp only [Heap.pf] at hp
        exact (hi.fsub _ (by rw [hF]; grind)).1
      · exact absurd (hi.fz x hxL hxF).2 h0
    have hxn : (h.hdr x).nextFree ≠ 0 → (h.hdr x).nextFree ∈ L := by
      intro h0
      by_cases hxF : x ∈ F
      · obtain ⟨C, D, hF⟩ := List.append_of_mem hxF
        have hs := Seg.append.1 (hF ▸ hi.fseg)
        have hp := hs.2.2.head_mem
        simp only [Heap.nf, if_neg hx0] at hp
        exact (hi.fsub _ (by rw [hF]; grind)).1
      · have := (hi.fz x hxL hxF).1
        simp only [Heap.nf, if_neg hx0] at this
        exact absurd this h0
    have i2 : (h.hdr x).prevFree ≠ 0 → _ := fun hne => hin _ (hxp hne)
    have i3 : (h.hdr x).nextFree ≠ 0 → _ := fun hne => hin _ (hxn hne)
    simp only [u, unlinkIf]
    heap_simp
    simp only [if_true]
    split
    · simp only [setPf_mem, setNf_mem, wr_mem]
      split <;> split <;> simp only [fill] <;> grind
    · simp only [wr_mem, fill]; grind
  have hnext : nextHeap h x = absorb u x (h.nx x) (h.hdr (h.nx x)).next := by
    simp only [u, hnn0]; rfl
  rw [hnext]
  clear_value u
  obtain ⟨F1, ks, knd, kmem, kz⟩ := key
  have hnF1 : h.nx x ∈ F1 := (kmem _).2 ⟨hnF, hnx'⟩
  have hxF1 : x ∉ F1 := fun hm => ((kmem _).1 hm).2 rfl
  have hfn : ∀ a ∈ F1, a ≠ 0 := fun a ha => ks.ne_zero ha
  have hF1L : ∀ a ∈ F1, a ∈ L := fun a ha => (hi.fsub a ((kmem a).1 ha).1).1
  obtain ⟨C, D, hF1⟩ := List.append_of_mem hnF1
  have hs := Seg.append.1 (hF1 ▸ ks)
  have hp := hs.1.last_mem hs.2.1
  have hn := hs.2.2.head_mem
  have hsN := ks.pv_ne_self knd hnF1
  simp only [Heap.nf, Heap.pf, if_neg hn0] at hp hn hsN
  have hw := hi.ok_nx hnL
  have hwne := (hi.seg.pv_ne_self hnd hnL).2
  have hwx : (h.hdr (h.nx x)).next ≠ x := by
    intro he
    have h1 := hi.seg.pv_ne_nx hnd hnL
    have h2 := (hL ▸ hi.seg : Seg _ _ 0 (A ++ _ :: _ :: B) 0).neighbours.2.1
    have h3 : h.nx (h.nx x) = x := by rw [Heap.nx, if_neg hn0]; exact he
    rw [h2, h3] at h1
    exact h1.elim hx0 (fun h => h rfl)
  have hwe : h.nx (h.nx x) = (h.hdr (h.nx x)).next := by rw [Heap.nx, if_neg hn0]
  rw [hwe] at hw hwne
  have n1 : (u.hdr (h.nx x)).prevFree ≠ x := by grind
  have n2 : (u.hdr (h.nx x)).nextFree ≠ x := by grind
  have hb : (absorb u x (h.nx x) (h.hdr (h.nx x)).next).buf = h.buf := by simp [absorb, ub]
  have hl : (absorb u x (h.nx x) (h.hdr (h.nx x)).next).len = h.len := by simp [absorb, ul]
  have hf : (absorb u x (h.nx x) (h.hdr (h.nx x)).next).first = h.first := by simp [absorb, uf]
  have hva : (absorb u x (h.nx x) (h.hdr (h.nx x)).next).verifyAlloc = h.verifyAlloc := by
    simp [absorb, uva]
  have hvf : (absorb u x (h.nx x) (h.hdr (h.nx x)).next).verifyFree = h.verifyFree := by
    simp [absorb, uvf]
  have hd : ∀ a, (absorb u x (h.nx x) (h.hdr (h.nx x)).next).dom a =
      if a = h.nx x then false else h.dom a := by
    intro a; simp [absorb, ud]
  have hsz : ∀ a, ((absorb u x (h.nx x) (h.hdr (h.nx x)).next).hdr a).size =
      if a = h.nx x then 0 else (u.hdr a).size := by
    intro a; unfold absorb; heap_simp; grind
  have hal : ∀ a, ((absorb u x (h.nx x) (h.hdr (h.nx x)).next).hdr a).alloc =
      if a = h.nx x then 0 else (h.hdr a).alloc := by
    intro a; rw [← ual]; unfold absorb; heap_simp; grind
  have hm1 : ∀ a, ((absorb u x (h.nx x) (h.hdr (h.nx x)).next).hdr a).magic1 =
      if a = h.nx x then 0 else (h.hdr a).magic1 := by
    intro a; rw [← um1]; unfold absorb; heap_simp; grind
  have hm2 : ∀ a, ((absorb u x (h.nx x) (h.hdr (h.nx x)).next).hdr a).magic2 =
      if a = h.nx x then 0 else (h.hdr a).magic2 := by
    intro a; rw [← um2]; unfold absorb; heap_simp; grind
  have hnf : ∀ a, (absorb u x (h.nx x) (h.hdr (h.nx x)).next).nf a =
      if a = h.nx x then 0 else if a = u.pf (h.nx x) then x else
      if a = x then u.nf (h.nx x) else u.nf a := by
    intro a; simp only [Heap.nf, Heap.pf, if_neg hn0]; unfold absorb; heap_simp; grind
  have hpf : ∀ a, (absorb u x (h.nx x) (h.hdr (h.nx x)).next).pf a =
      if a = h.nx x then 0 else if a = u.nf (h.nx x) ∧ a ≠ 0 then x else
      if a = x then u.pf (h.nx x) else u.pf a := by
    intro a; simp only [Heap.nf, Heap.pf, if_neg hn0]; unfold absorb; heap_simp; grind
  have hnx : ∀ a, (absorb u x (h.nx x) (h.hdr (h.nx x)).next).nx a =
      if a = h.nx x then 0 else if a = x then h.nx (h.nx x) else h.nx a := by
    intro a
    have hun := une a
    rw [hwe]
    simp only [Heap.nx] at hun hn0 ⊢; unfold absorb; heap_simp; grind
  have hpv : ∀ a, (absorb u x (h.nx x) (h.hdr (h.nx x)).next).pv a =
      if a = h.nx x then 0 else if a = h.nx (h.nx x) ∧ a ≠ 0 then x else h.pv a := by
    intro a
    have hun := upr a
    rw [hwe]
    simp only [Heap.pv]; unfold absorb; heap_simp; grind
  have hmem : ∀ b, (absorb u x (h.nx x) (h.hdr (h.nx x)).next).mem b = h.mem b ∨
      ∃ a ∈ L, a ≤ b ∧ b < a + 64 := by
    intro b
    by_cases hin : ∃ a ∈ L, a ≤ b ∧ b < a + 64
    · exact Or.inr hin
    · left
      have hin : ∀ a ∈ L, ¬(a ≤ b ∧ b < a + 64) := fun a ha hh => hin ⟨a, ha, hh⟩
      rw [← umem b hin]
      have i1 := hin x hxL
      have i2 := hin _ hnL
      have i3 : (h.hdr (h.nx x)).next ≠ 0 → _ := fun hne => hin _ (hw.resolve_left hne)
      have i4 : (u.hdr (h.nx x)).prevFree ≠ 0 → _ := fun hne => hin (u.hdr (h.nx x)).prevFree
        (hF1L _ (by rw [hF1]; grind))
      have i5 : (u.hdr (h.nx x)).nextFree ≠ 0 → _ := fun hne => hin (u.hdr (h.nx x)).nextFree
        (hF1L _ (by rw [hF1]; grind))
      simp only [absorb, wr_mem, setPf_mem, setNf_mem, setPrev_mem, erase_mem]
      split <;> split <;> split <;> simp only [fill] <;> grind
  generalize absorb u x (h.nx x) (h.hdr (h.nx x)).next = g at *
  have hmemL : ∀ a, a ∈ A ++ x :: B ↔ a ∈ L ∧ a ≠ h.nx x := by
    intro a; rw [hL] at hnd ⊢; grind
  refine ⟨A ++ x :: B, C ++ x :: D, ⟨⟨?_, ?_, ?_, ?_, by simp, ?_, ?_, ?_, ?_⟩, ?_, ?_, ?_, ?_, ?_⟩,
    ⟨hb, hl, hva, hvf, ?_, ?_, ?_, ?_, hmem⟩⟩
  · rw [hb]; exact hi.buf0
  · rw [hb, hl]; exact hi.end64
  · rw [hb, hf]; exact hi.first
  · rw [hb, hl]
    refine Tile.merge (sz := fun a => (h.hdr a).size) (hL ▸ hi.tile) ?_ ?_
    · simp only [hsz, usz]; grind
    · intro b hb; simp only [hsz, usz]; rw [hL] at hnd; grind
  · have hs := hi.seg
    have hnb := (hL ▸ hi.seg : Seg _ _ 0 (A ++ _ :: _ :: B) 0).neighbours
    rw [hL] at hs hnd
    have := Seg.remove (A := A ++ [x]) (x := h.nx x) (B := B) (nx := h.nx) (pv := h.pv)
      (nx' := g.nx) (pv' := g.pv) (by simpa using hs) (by simpa using hnd) ?_ ?_ ?_ ?_
    · simpa using this
    · rw [hnx]; grind
    · intro hne; rw [hpv]; grind
    · intro b hb hbn; rw [hnx]; grind
    · intro b hb hbn; rw [hpv]; grind
  · intro a; rw [hd, hmemL]; have := hi.dom a; grind
  · intro a ha; rw [hal]; have := hi.alloc a; grind
  · intro a ha; rw [hm1, hm2]; have := hi.magic a; grind
  · rw [hF1] at ks knd hxF1
    refine ks.replace knd (by grind) hx0 ?_ ?_ ?_ ?_ ?_ ?_
    · rw [hnf]; simp only [Heap.pf]; grind
    · rw [hpf]; simp only [Heap.nf, if_neg hn0]; grind
    · rw [hnf]; simp only [Heap.pf]; grind
    · intro hne; rw [hpf]; simp only [Heap.nf, if_neg hn0] at hne ⊢; grind
    · intro b hb hbn; rw [hnf]; grind
    · intro b hb hbn; rw [hpf]; grind
  · rw [hF1] at knd hxF1; grind
  · intro a
    rw [hal, hmemL]
    have h1 := hi.fsub a
    have h2 := hi.fall a
    have h3 := kmem a
    rw [hF1] at h3 knd
    have := hi.x0
    grind
  · intro a ha h1
    have haL := ((hmemL a).1 ha).1
    have han := ((hmemL a).1 ha).2
    rw [hal, if_neg han] at h1
    have haF : a ∉ F := fun hm => by have := (hi.fsub a hm).2; omega
    have hax : a ≠ x := fun he => by rw [he, hi.x0] at h1; omega
    have ha0 := hi.mem_ne haL
    have haF1 : a ∉ F1 := fun hm => haF ((kmem a).1 hm).1
    rw [hF1] at haF1
    rw [hnf, hpf, if_neg han, if_neg han, if_neg, if_neg hax, if_neg, if_neg hax]
    · exact kz a haL haF hax
    · simp only [Heap.nf, if_neg hn0]; grind
    · simp only [Heap.pf]; grind
  · intro a ha h0 hz
    have haL := ((hmemL a).1 ha).1
    have han := ((hmemL a).1 ha).2
    rw [hal, if_neg han] at h0
    rw [hnx, if_neg han] at hz ⊢
    by_cases hax : a = x
    · rw [if_pos hax] at hz ⊢
      have h3 := hi.adj (h.nx x) hnL hna hz
      rw [hwe] at hz h3 ⊢
      have hwL := hw.resolve_left hz
      have h4 := hi.alloc _ hwL
      rw [hal, if_neg hwne]
      by_contra h5
      rcases h3 (by omega) with h6 | ⟨h6, _⟩
      · exact hnx' h6
      · exact h6
    · rw [if_neg hax] at hz ⊢
      have hok := (hi.ok_nx haL).resolve_left hz
      have h4 := hi.alloc _ hok
      have hne : h.nx a ≠ h.nx x := by
        intro he
        obtain ⟨C', D', hL2⟩ := hi.seg.split_next haL hz
        have h5 := (hL2 ▸ hi.seg : Seg _ _ 0 (C' ++ _ :: _ :: D') 0).neighbours.2.1
        have h6 := (hL ▸ hi.seg : Seg _ _ 0 (A ++ _ :: _ :: B) 0).neighbours.2.1
        rw [he, h6] at h5
        exact hax h5.symm
      rw [hal, if_neg hne]
      by_contra h5
      rcases hi.adj a haL h0 hz (by omega) with h6 | ⟨h6, _⟩
      · exact hax h6
      · exact h6
  · intro a ha; exact ((hmemL a).1 ha).1
  · intro a ha h1; exact (hmemL a).2 ⟨ha, fun h => by rw [h, hna] at h1; omega⟩
  · intro a ha; rw [hal, if_neg ((hmemL a).1 ha).2]
  · intro a ha h1
    rw [hsz, if_neg ((hmemL a).1 ha).2, usz, if_neg]
    intro h; rw [h, hi.x0] at h1; omega

/-- The heap after `x` has been put at the front of the free list. -/
def pushHeap (h : Heap) (x : Nat) : Heap :=
  { (h.wr x fun y => { y with nextFree := h.firstFree }).setPf h.firstFree x with firstFree := x }

theorem push_inv {h : Heap} {L F : List Nat} {x : Nat} (hi : Mid h L F x False) (hxF : x ∉ F)
    (hn : h.nx x = 0 ∨ (h.hdr (h.nx x)).alloc ≠ 0) :
    Inv (pushHeap h x) L (x :: F) ∧ Kept h (pushHeap h x) L L := by
  have hxL := hi.xL
  have hx0 := hi.mem_ne hxL
  have hz := hi.fz x hxL hxF
  have hfm := hi.fseg.head_mem
  have hff : h.nf 0 = h.firstFree := by simp [Heap.nf]
  rw [hff] at hfm
  have hfx : h.firstFree ≠ x := by grind
  have hb : (pushHeap h x).buf = h.buf := by simp [pushHeap]
  have hl : (pushHeap h x).len = h.len := by simp [pushHeap]
  have hf : (pushHeap h x).first = h.first := by simp [pushHeap]
  have hva : (pushHeap h x).verifyAlloc = h.verifyAlloc := by simp [pushHeap]
  have hvf : (pushHeap h x).verifyFree = h.verifyFree := by simp [pushHeap]
  have hd : (pushHeap h x).dom = h.dom := by simp [pushHeap]
  have hsz : ∀ a, ((pushHeap h x).hdr a).size = (h.hdr a).size := by
    intro a; unfold pushHeap; heap_simp; grind
  have hal : ∀ a, ((pushHeap h x).hdr a).alloc = (h.hdr a).alloc := by
    intro a; unfold pushHeap; heap_simp; grind
  have hm1 : ∀ a, ((pushHeap h x).hdr a).magic1 = (h.hdr a).magic1 := by
    intro a; unfold pushHeap; heap_simp; grind
  have hm2 : ∀ a, ((pushHeap h x).hdr a).magic2 = (h.hdr a).magic2 := by
    intro a; unfold pushHeap; heap_simp; grind
  have hnx : (pushHeap h x).nx = h.nx := by
    funext a; simp only [Heap.nx]; unfold pushHeap; heap_simp; grind
  have hpv : (pushHeap h x).pv = h.pv := by
    funext a; simp only [Heap.pv]; unfold pushHeap; heap_simp; grind
  have hnf : ∀ a, (pushHeap h x).nf a = if a = 0 then x else if a = x then h.nf 0 else h.nf a := by
    intro a; simp only [Heap.nf]; unfold pushHeap; heap_simp; grind
  have hpf : ∀ a, (pushHeap h x).pf a = if a = h.nf 0 ∧ a ≠ 0 then x else h.pf a := by
    intro a; simp only [Heap.pf, Heap.nf]; unfold pushHeap; heap_simp; grind
  have hmem : ∀ b, (pushHeap h x).mem b = h.mem b ∨ ∃ a ∈ L, a ≤ b ∧ b < a + 64 := by
    intro b
    by_cases hin : ∃ a ∈ L, a ≤ b ∧ b < a + 64
    · exact Or.inr hin
    · left
      have hin : ∀ a ∈ L, ¬(a ≤ b ∧ b < a + 64) := fun a ha hh => hin ⟨a, ha, hh⟩
      have i1 := hin x hxL
      have i2 : h.firstFree ≠ 0 → _ := fun hne => hin _ (hi.fsub _ (hfm.resolve_left hne)).1
      simp only [pushHeap, wr_mem, setPf_mem]
      split <;> simp only [fill] <;> grind
  generalize pushHeap h x = g at *
  refine ⟨⟨⟨?_, ?_, ?_, ?_, hi.ne, ?_, ?_, ?_, ?_⟩, ?_, ?_, ?_, ?_, ?_⟩,
    ⟨hb, hl, hva, hvf, fun a ha => ha, fun a ha _ => ha, fun a _ => hal a, fun a _ _ => hsz a, hmem⟩⟩
  · rw [hb]; exact hi.buf0
  · rw [hb, hl]; exact hi.end64
  · rw [hb, hf]; exact hi.first
  · rw [hb, hl]; exact hi.tile.congr (fun a _ => hsz a)
  · rw [hnx, hpv]; exact hi.seg
  · rw [hd]; exact hi.dom
  · intro a ha; rw [hal]; exact hi.alloc a ha
  · intro a ha; rw [hm1, hm2]; exact hi.magic a ha
  · refine hi.fseg.push hi.fnd hxF hx0 ?_ ?_ ?_ ?_ ?_ ?_
    · rw [hnf]; simp
    · rw [hpf]; rw [hff, if_neg (by grind)]; exact hz.2
    · rw [hnf, if_neg hx0, if_pos rfl]
    · intro hne; rw [hpf, if_pos ⟨rfl, hne⟩]
    · intro b hb; rw [hnf]; have := hi.fseg.ne_zero hb; grind
    · intro b hb hbn; rw [hpf]; grind
  · exact List.nodup_cons.2 ⟨hxF, hi.fnd⟩
  · intro a; rw [hal]; have h1 := hi.fsub a; have h2 := hi.fall a; have := hi.x0; grind
  · intro a ha h1
    rw [hal] at h1
    have haF : a ∉ F := fun hm => by have := (hi.fsub a hm).2; omega
    have hax : a ≠ x := fun he => by rw [he, hi.x0] at h1; omega
    have ha0 := hi.mem_ne ha
    rw [hnf, hpf, if_neg ha0, if_neg hax, if_neg]
    · exact hi.fz a ha haF
    · rw [hff]; grind
  · intro a ha h0 hz'
    rw [hal] at h0
    rw [hnx] at hz' ⊢
    rw [hal]
    have hok := (hi.ok_nx ha).resolve_left hz'
    have h4 := hi.alloc _ hok
    by_contra h5
    have hax : a ≠ x := by rintro rfl; rcases hn with h | h <;> omega
    rcases hi.adj a ha h0 hz' (by omega) with h6 | ⟨h6, _⟩
    · exact hax h6
    · exact h6

/-- `x` merged with the block before but not with the block after. -/
theorem Mid.inv {h : Heap} {L F : List Nat} {x : Nat} (hi : Mid h L F x False) (hxF : x ∈ F)
    (hn : h.nx x = 0 ∨ (h.hdr (h.nx x)).alloc ≠ 0) : Inv h L F := by
  refine ⟨hi.toBase, hi.fseg, hi.fnd, ?_, ?_, ?_⟩
  · intro a; have h1 := hi.fsub a; have h2 := hi.fall a; grind
  · intro a ha h1
    exact hi.fz a ha (fun hm => by have := (hi.fsub a hm).2; omega)
  · intro a ha h0 hz'
    have hok := (hi.ok_nx ha).resolve_left hz'
    have h4 := hi.alloc _ hok
    by_contra h5
    have hax : a ≠ x := by rintro rfl; rcases hn with h | h <;> omega
    rcases hi.adj a ha h0 hz' (by omega) with h6 | ⟨h6, _⟩
    · exact hax h6
    · exact h6

/-- `mergePrev` never fails. -/
theorem mergePrev_spec {h : Heap} {L F : List Nat} {x : Nat} (hi : Mid h L F x True)
    (hxF : x ∉ F) :
    ∃ h' L' x' old, mergePrev h x = some (h', x', old) ∧ Mid h' L' F x' False ∧
      Kept h h' L L' ∧ (old = 0 ↔ x' ∉ F) := by
  have hxL := hi.xL
  have hx0 := hi.mem_ne hxL
  have hok := hi.ok_pv hxL
  have hokn := hi.ok_nx hxL
  have hdm : okPtr h (h.hdr x).prev = true :=
    okPtr_iff.2 (hok.imp id fun hm => (hi.dom _).2 hm)
  have hpv : h.pv x = (h.hdr x).prev := rfl
  unfold mergePrev
  simp only [hdm, need_true, Option.bind_eq_bind, Option.bind_some]
  by_cases hc : (h.hdr x).prev ≠ 0 ∧ (h.hdr (h.hdr x).prev).alloc = 0
  · rw [if_pos hc]
    obtain ⟨L', h1, h2, h3⟩ := prev_mid hi hxF hc.1 hc.2
    have hpx : (h.hdr x).prev ≠ x := (hi.seg.pv_ne_self hi.nodup hxL).1
    have hpL := hok.resolve_left hc.1
    have b1 := hi.tile.bounds.2 _ hpL
    have b2 := hi.tile.bounds.2 _ hxL
    have b3 := hi.tile.disjoint hpL hxL hpx
    have b4 := hi.end64
    have hmod : ((h.hdr (h.hdr x).prev).size + (hsize + (h.hdr x).size)) % W64 =
        (h.hdr (h.hdr x).prev).size + 64 + (h.hdr x).size := by
      rw [Nat.mod_eq_of_lt]
      · simp only [hsize]; omega
      · simp only [hsize]
        rw [hpv] at b1 b3
        omega
    have hwr : (h.wr (h.hdr x).prev fun y => { y with
          size := (y.size + (hsize + (h.hdr x).size)) % W64, next := (h.hdr x).next }) =
        h.wr (h.hdr x).prev fun y => { y with
          size := y.size + 64 + (h.hdr x).size, next := (h.hdr x).next } := by
      simp only [Heap.wr, hmod]
    have hdn : okPtr h (h.hdr x).next = true := by
      refine okPtr_iff.2 ?_
      simp only [Heap.nx, if_neg hx0] at hokn
      exact hokn.imp id fun hm => (hi.dom _).2 hm
    rw [hwr]
    refine ⟨prevHeap h x, L', h.pv x, x, ?_, h1, h3, ?_⟩
    · simp only [okPtr] at hdn
      simp only [wr_next, if_true, okPtr, wr_dom, hdn, need_true, Option.bind_some]
      rfl
    · simp [hx0, h2]
  · rw [if_neg hc]
    refine ⟨h, L, x, 0, rfl, ?_, Kept.refl _ _, by simp [hxF]⟩
    refine ⟨hi.toBase, hi.fseg, hi.fnd, hi.xL, hi.x0, hi.fsub, hi.fall, hi.fz, ?_⟩
    intro a ha h0 hn h1
    rcases hi.adj a ha h0 hn h1 with h2 | ⟨_, h2⟩
    · exact Or.inl h2
    · exfalso
      obtain ⟨C, D, hL2⟩ := hi.seg.split_next ha hn
      have h5 := (hL2 ▸ hi.seg : Seg _ _ 0 (C ++ _ :: _ :: D) 0).neighbours
      have h6 : (h.hdr x).prev = a := by rw [← h2]; exact h5.2.1
      exact hc ⟨by rw [h6]; exact h5.2.2.1, by rw [h6]; exact h0⟩

/-- `mergeNext` never fails. -/
theorem mergeNext_spec {h : Heap} {L F : List Nat} {x old : Nat} (hi : Mid h L F x False)
    (hold : old = 0 ↔ x ∉ F) :
    ∃ h' old', mergeNext h x old = some (h', old') ∧
      ((old' ≠ 0 ∧ ∃ L' F', Inv h' L' F' ∧ Kept h h' L L') ∨
       (old' = 0 ∧ h' = h ∧ x ∉ F ∧ (h.nx x = 0 ∨ (h.hdr (h.nx x)).alloc ≠ 0))) := by
  have hxL := hi.xL
  have hx0 := hi.mem_ne hxL
  have hokn := hi.ok_nx hxL
  have hnx : h.nx x = (h.hdr x).next := by simp [Heap.nx, hx0]
  have hdn : okPtr h (h.hdr x).next = true :=
    okPtr_iff.2 (by rw [← hnx]; exact hokn.imp id fun hm => (hi.dom _).2 hm)
  unfold mergeNext
  simp only [hdn, need_true, Option.bind_eq_bind, Option.bind_some]
  by_cases hc : (h.hdr x).next ≠ 0 ∧ (h.hdr (h.hdr x).next).alloc = 0
  swap
  · rw [if_neg hc]
    have hc' : h.nx x = 0 ∨ (h.hdr (h.nx x)).alloc ≠ 0 := by
      rw [hnx]; by_contra hcon; exact hc ⟨fun h => hcon (Or.inl h), by by_contra h; exact hcon (Or.inr h)⟩
    refine ⟨h, old, rfl, ?_⟩
    by_cases h0 : old = 0
    · exact Or.inr ⟨h0, rfl, hold.1 h0, hc'⟩
    · refine Or.inl ⟨h0, L, F, hi.inv ?_ hc', Kept.refl _ _⟩
      by_contra hF; exact h0 (hold.2 hF)
  rw [if_pos hc]
  obtain ⟨L', F', h1, h2⟩ := next_inv hi (by rw [hnx]; exact hc.1) (by rw [hnx]; exact hc.2)
  refine ⟨nextHeap h x, (h.hdr x).next, ?_, Or.inl ⟨hc.1, L', F', h1, h2⟩⟩
  -- sizes do not wrap
  have hnL : (h.hdr x).next ∈ L := by rw [← hnx]; exact hokn.resolve_left (by rw [hnx]; exact hc.1)
  have hxn : (h.hdr x).next ≠ x := by rw [← hnx]; exact (hi.seg.pv_ne_self hi.nodup hxL).2
  have b1 := hi.tile.bounds.2 _ hnL
  have b2 := hi.tile.bounds.2 _ hxL
  have b3 := hi.tile.disjoint hnL hxL hxn
  have b4 := hi.end64
  have hmod : ((h.hdr x).size + (hsize + (h.hdr (h.hdr x).next).size)) % W64 =
      (h.hdr x).size + 64 + (h.hdr (h.hdr x).next).size := by
    rw [Nat.mod_eq_of_lt]
    · simp only [hsize]; omega
    · simp only [hsize]; omega
  have hwr : (h.wr x fun y => { y with
        size := (y.size + (hsize + (h.hdr (h.hdr x).next).size)) % W64
        next := (h.hdr (h.hdr x).next).next }) =
      h.wr x fun y => { y with
        size := y.size + 64 + (h.hdr (h.hdr x).next).size
        next := (h.hdr (h.hdr x).next).next } := by
    simp only [Heap.wr, hmod]
  rw [hwr]
  -- every pointer followed is a header
  have hFd : ∀ a ∈ F, h.dom a = true := fun a ha => (hi.dom a).2 (hi.fsub a ha).1
  have okF : ∀ a ∈ F, okPtr h ((h.hdr a).prevFree) = true ∧ okPtr h ((h.hdr a).nextFree) = true := by
    intro a ha
    have ha0 := hi.fseg.ne_zero ha
    obtain ⟨C, D, hF⟩ := List.append_of_mem ha
    have hs := Seg.append.1 (hF ▸ hi.fseg)
    have hp := hs.1.last_mem hs.2.1
    have hn := hs.2.2.head_mem
    simp only [Heap.pf, Heap.nf, if_neg ha0] at hp hn
    refine ⟨okPtr_iff.2 ?_, okPtr_iff.2 ?_⟩
    · exact hp.imp id fun hm => hFd _ (by rw [hF]; simp [hm])
    · exact hn.imp id fun hm => hFd _ (by rw [hF]; simp [hm])
  have okx : okPtr h (h.hdr x).prevFree = true ∧ okPtr h (h.hdr x).nextFree = true := by
    by_cases hxF : x ∈ F
    · exact okF x hxF
    · have hz := hi.fz x hxL hxF
      simp only [Heap.pf, Heap.nf, if_neg hx0] at hz
      rw [hz.1, hz.2]; simp [okPtr]
  have okn := okF _ (hi.fall _ hnL hc.2 hxn)
  have okw : okPtr h (h.hdr (h.hdr x).next).next = true := by
    have h3 := hi.ok_nx hnL
    simp only [Heap.nx, if_neg hc.1] at h3
    exact okPtr_iff.2 (h3.imp id fun hm => (hi.dom _).2 hm)
  -- the optional removal from the free list
  have hun : ∀ g : Heap, g.dom = h.dom → (g.hdr x).prevFree = (h.hdr x).prevFree →
      (g.hdr x).nextFree = (h.hdr x).nextFree → (h.hdr x).prevFree ≠ x → 
      unlink g x = some (unlinkIf g x) := by
    intro g gd gp gn gx
    have hne : ¬(x = (h.hdr x).prevFree ∧ (h.hdr x).prevFree ≠ 0) := fun hh => gx hh.1.symm
    unfold unlink unlinkIf
    split
    · simp only [Option.bind_eq_bind, setNf_nextFree, setNf_prevFree, okPtr, gd, setNf_dom, gp, gn, if_neg hne]
      have o1 := okx.1
      have o2 := okx.2
      simp only [okPtr] at o1 o2
      simp only [o1, o2, need_true, Option.bind_some]
    · rfl
  have hxp : (h.hdr x).prevFree ≠ x := by
    by_cases hxF : x ∈ F
    · exact (hi.fseg.pv_ne_self hi.fnd hxF).1
    · have hz := (hi.fz x hxL hxF).2
      simp only [Heap.pf] at hz
      rw [hz]; exact fun h => hx0 h.symm
  have hpn : (h.hdr (h.hdr x).next).prevFree = x → (h.hdr x).nextFree = (h.hdr x).next := by
    intro he
    have hnF := hi.fall _ hnL hc.2 hxn
    obtain ⟨C, D, hF⟩ := List.append_of_mem hnF
    have hs := Seg.append.1 (hF ▸ hi.fseg)
    have := hs.1.nx_last hs.2.1
    simp only [Heap.pf] at this
    rw [he, Heap.nf, if_neg hx0] at this
    exact this
  unfold nextHeap
  dsimp only
  have g1 : ∀ a, ((h.wr x fun y => { y with
        size := y.size + 64 + (h.hdr (h.hdr x).next).size
        next := (h.hdr (h.hdr x).next).next }).hdr a).prevFree = (h.hdr a).prevFree := by
    intro a; heap_simp; grind
  have g2 : ∀ a, ((h.wr x fun y => { y with
        size := y.size + 64 + (h.hdr (h.hdr x).next).size
        next := (h.hdr (h.hdr x).next).next }).hdr a).nextFree = (h.hdr a).nextFree := by
    intro a; heap_simp; grind
  have g3 : ((h.wr x fun y => { y with
        size := y.size + 64 + (h.hdr (h.hdr x).next).size
        next := (h.hdr (h.hdr x).next).next }).hdr x).next = (h.hdr (h.hdr x).next).next := by
    heap_simp; grind
  have g4 : (h.wr x fun y => { y with
        size := y.size + 64 + (h.hdr (h.hdr x).next).size
        next := (h.hdr (h.hdr x).next).next }).dom = h.dom := rfl
  generalize (h.wr x fun y => { y with
        size := y.size + 64 + (h.hdr (h.hdr x).next).size
        next := (h.hdr (h.hdr x).next).next }) = g at *
  have e := hun g g4 (g1 x) (g2 x) hxp
  rw [e]
  simp only [Option.bind_some]
  have u1 : (unlinkIf g x).dom = h.dom := by unfold unlinkIf; split <;> simp [g4]
  have u2 : ((unlinkIf g x).hdr (h.hdr x).next).prevFree =
      if (h.hdr x).next = (h.hdr x).nextFree then (h.hdr x).prevFree
      else (h.hdr (h.hdr x).next).prevFree := by
    have := hc.1
    unfold unlinkIf; split
    · heap_simp; simp only [g1, g2] at *; grind
    · simp only [g1, g2] at *; grind
  have u3 : ((unlinkIf g x).hdr (h.hdr x).next).nextFree =
      if (h.hdr x).next = (h.hdr x).prevFree then (h.hdr x).nextFree
      else (h.hdr (h.hdr x).next).nextFree := by
    have := hc.1
    unfold unlinkIf; split
    · heap_simp; simp only [g1, g2] at *; grind
    · simp only [g1, g2] at *; grind
  have u4 : ((unlinkIf g x).hdr x).next = (h.hdr (h.hdr x).next).next := by
    rw [← g3]; unfold unlinkIf; split
    · heap_simp
    · rfl
  have o1 : okPtr h ((unlinkIf g x).hdr (h.hdr x).next).prevFree = true := by
    rw [u2]; split
    · exact okx.1
    · exact okn.1
  have o2 : okPtr h ((unlinkIf g x).hdr (h.hdr x).next).nextFree = true := by
    rw [u3]; split
    · exact okx.2
    · exact okn.2
  have n1 : ¬(x = ((unlinkIf g x).hdr (h.hdr x).next).prevFree ∧
      ((unlinkIf g x).hdr (h.hdr x).next).prevFree ≠ 0) := by
    rw [u2]; grind
  generalize unlinkIf g x = u at *
  unfold absorb
  dsimp only
  simp only [okPtr] at o1 o2 okw
  simp only [wr_prevFree, wr_nextFree, wr_next, setNf_nextFree, setNf_prevFree, setNf_next,
    setPf_nextFree, setPf_prevFree, setPf_next, if_true, okPtr, wr_dom, setNf_dom, setPf_dom, u1,
    u4, if_neg n1, o1, o2, okw, need_true, Option.bind_some]

theorem prepend_spec {h : Heap} {L F : List Nat} {x : Nat} (hi : Mid h L F x False) (hxF : x ∉ F) :
    prepend h x = some (pushHeap h x) := by
  have hfm := hi.fseg.head_mem
  have hff : h.nf 0 = h.firstFree := by simp [Heap.nf]
  rw [hff] at hfm
  have ho : okPtr h h.firstFree = true :=
    okPtr_iff.2 (hfm.imp id fun hm => (hi.dom _).2 (hi.fsub _ hm).1)
  simp only [okPtr] at ho
  unfold prepend pushHeap
  simp only [okPtr, wr_firstFree, wr_dom, ho, need_true, Option.bind_eq_bind, Option.bind_some]

/-- What a successful `free` does. -/
structure Freed (h h' : Heap) (L L' : List Nat) (x : Nat) : Prop where
  buf : h'.buf = h.buf
  len : h'.len = h.len
  va : h'.verifyAlloc = h.verifyAlloc
  vf : h'.verifyFree = h.verifyFree
  used : ∀ a, a ∈ L' ∧ (h'.hdr a).alloc = 1 ↔ a ∈ L ∧ (h.hdr a).alloc = 1 ∧ a ≠ x
  size : ∀ a ∈ L', (h'.hdr a).alloc = 1 → (h'.hdr a).size = (h.hdr a).size
  mem : ∀ b, h'.mem b = h.mem b ∨ ∃ a ∈ L, a ≤ b ∧ b < a + 64

theorem free_core {h : Heap} {L F : List Nat} (hi : Inv h L F) {x : Nat} (hx : x ∈ L)
    (h1 : (h.hdr x).alloc = 1) (hsz : 0 < (h.hdr x).size) :
    ∃ h' L' F', Inv h' L' F' ∧ Freed h h' L L' x ∧
      free h (x + 64) = if h.verifyFree then none else some h' := by
  have hx0 := hi.mem_ne hx
  have hb := hi.buf0
  have hf : h.first ≠ 0 := by rw [hi.first]; exact hb
  have hbd := hi.tile.bounds.2 x hx
  obtain ⟨hm, hxF⟩ := mark_mid hi hx h1
  obtain ⟨ha, La, xa, old, e1, m1, k1, o1⟩ := mergePrev_spec hm hxF
  obtain ⟨hb', old', e2, m2⟩ := mergeNext_spec m1 o1
  obtain ⟨h', L', F', e3, i3, k3⟩ : ∃ h' L' F',
      prependIf hb' xa old' = some h' ∧ Inv h' L' F' ∧ Kept ha h' La L' := by
    rcases m2 with ⟨h0, L', F', i, k⟩ | ⟨h0, rfl, hF, hn⟩
    · exact ⟨hb', L', F', by rw [prependIf, if_neg h0], i, k⟩
    · have := push_inv m1 hF hn
      exact ⟨pushHeap hb' xa, La, xa :: F, by rw [prependIf, if_pos h0, prepend_spec m1 hF], this.1, this.2⟩
  have k := k1.trans k3
  have hal : ∀ a, ((h.wr x fun y => { y with alloc := 0 }).hdr a).alloc =
      if a = x then 0 else (h.hdr a).alloc := by
    intro a; heap_simp
  have hszs : ∀ a, ((h.wr x fun y => { y with alloc := 0 }).hdr a).size = (h.hdr a).size := by
    intro a; heap_simp; grind
  refine ⟨h', L', F', i3, ⟨k.buf, k.len, k.va, k.vf, ?_, ?_, ?_⟩, ?_⟩
  · intro a
    constructor
    · rintro ⟨h2, h3⟩
      have h4 := k.alloc a h2
      rw [hal, h3] at h4
      have := k.sub a h2
      grind
    · rintro ⟨h2, h3, h4⟩
      have h5 := k.used a h2 (by rw [hal, if_neg h4]; exact h3)
      refine ⟨h5, ?_⟩
      rw [k.alloc a h5, hal, if_neg h4]; exact h3
  · intro a h2 h3
    have h4 := k.alloc a h2
    have h5 := k.size a h2 (by rw [← h4]; exact h3)
    rw [h5, hszs]
  · intro b
    rcases k.mem b with h2 | h2
    · rw [h2]
      by_cases hin : x ≤ b ∧ b < x + 64
      · exact Or.inr ⟨x, hx, hin⟩
      · left; simp only [wr_mem, fill, if_neg hin]
    · exact Or.inr h2
  · unfold free
    rw [if_neg (by omega)]
    have hrange : decide (¬(x + 64 < h.buf ∨ x + 64 ≥ h.buf + h.len)) = true := by
      rw [decide_eq_true_eq]; omega
    have hsub : x + 64 - hsize = x := by simp [hsize]
    have hvf : h'.verifyFree = h.verifyFree := k.vf
    simp only [hrange, need_true, hsub, (hi.dom x).2 hx, hi.verifyHeader hx, h1,
      beq_self_eq_true, Option.bind_eq_bind, Option.bind_some, e1, e2, e3, hvf, i3.verifyChain]
    cases h.verifyFree <;> rfl

end Verif.Heap
