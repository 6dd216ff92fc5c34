import Verif.Heap.Free

/-!
# C38: the crypto heap

A client's view of the heap is the table `live`: the number of bytes it asked for at
each address it has been given and has not freed (0 elsewhere).  `Reach` lists what a
client may do: allocate, free an address that is live, and write bytes inside its
allocations.  Everything below holds after any sequence of such actions.
-/

namespace Verif.Heap

/-- The client's table. -/
abbrev Live := Nat → Nat

/-- All states of the heap over the `len` bytes at `buf`, with the client's table. -/
inductive Reach (buf len : Nat) : Heap → Live → Prop
  | init (m : Nat → Nat) : Reach buf len (init m buf len) (fun _ => 0)
  | null {h live} (n size : Nat) {h'} : Reach buf len h live → n < W64 → size < W64 →
      calloc h n size = some (h', 0) → Reach buf len h' live
  | calloc {h live} (n size : Nat) {h' p} : Reach buf len h live → n < W64 → size < W64 →
      calloc h n size = some (h', p) → p ≠ 0 → Reach buf len h' (upd live p (n * size))
  | free {h live} (p : Nat) {h'} : Reach buf len h live → live p ≠ 0 →
      free h p = some h' → Reach buf len h' (upd live p 0)
  | write {h live} (p i v : Nat) : Reach buf len h live → i < live p → v < 256 →
      Reach buf len { h with mem := upd h.mem (p + i) v } live

/-- The buffer is usable: not NULL, within the address space and large enough. -/
structure BufOk (buf len : Nat) : Prop where
  ne : buf ≠ 0
  fits : buf + len ≤ W64
  large : 72 ≤ len

/-- The bytes lost to the alignment of the buffer. -/
def skip (buf : Nat) : Nat := (8 - buf % 8) % 8

structure Good (buf len : Nat) (h : Heap) (live : Live) (L F : List Nat) : Prop where
  inv : Inv h L F
  bufE : h.buf = buf + skip buf
  lenE : h.len = len - skip buf
  vf : h.verifyFree = false
  own : ∀ p, live p ≠ 0 → 64 ≤ p ∧ p - 64 ∈ L ∧ (h.hdr (p - 64)).alloc = 1 ∧
    live p ≤ (h.hdr (p - 64)).size
  all : ∀ a ∈ L, (h.hdr a).alloc = 1 → live (a + 64) ≠ 0

theorem good {buf len : Nat} (hb : BufOk buf len) {h : Heap} {live : Live}
    (hr : Reach buf len h live) : ∃ L F, Good buf len h live L F := by
  induction hr with
  | init m =>
    have h1 := hb.large
    have h2 := hb.fits
    have h3 := hb.ne
    have hadj : (if buf % alignMult ≠ 0 then alignMult - buf % alignMult else 0) = skip buf := by
      unfold skip alignMult; split <;> omega
    have hsk : skip buf < 8 := by unfold skip; omega
    have hal : (buf + skip buf) % 8 = 0 := by unfold skip; omega
    refine ⟨[buf + skip buf], [buf + skip buf], ?_⟩
    unfold init
    rw [if_neg (by unfold hsize alignMult; omega)]
    simp only [hadj]
    have hne : buf + skip buf ≠ 0 := by omega
    refine ⟨⟨⟨hne, ?_, rfl, ?_, by simp, ?_, ?_, ?_, ?_⟩, ?_, by simp, ?_, ?_, ?_⟩, rfl, rfl, rfl,
      by simp, ?_⟩
    · show buf + skip buf + (len - skip buf) ≤ W64; omega
    · refine ⟨rfl, hal, ?_⟩
      simp only [upd, if_true, Tile, hsize]; omega
    · simp [Seg, Heap.nx, Heap.pv, upd, hne]; omega
    · intro a; simp only [upd, List.mem_singleton]; split <;> simp_all
    · intro a ha; rw [List.mem_singleton.1 ha]; simp [upd]
    · intro a ha; rw [List.mem_singleton.1 ha]; simp [upd]
    · simp [Seg, Heap.nf, Heap.pf, upd, hne]; omega
    · intro a; simp only [List.mem_singleton, upd]
      constructor
      · rintro rfl; simp
      · exact fun h => h.1
    · intro a ha; rw [List.mem_singleton.1 ha]; simp [upd]
    · intro a ha; rw [List.mem_singleton.1 ha]; simp [upd, Heap.nx, hne]
    · intro a ha; rw [List.mem_singleton.1 ha]; simp [upd]
  | null n size _ hn hs hc ih =>
    obtain ⟨L, F, g⟩ := ih
    obtain ⟨h', r, e, h1, _, _⟩ := calloc_spec g.inv (size := size) hn
    rw [e] at hc
    obtain ⟨rfl, rfl⟩ := Prod.mk.inj (Option.some.inj hc)
    rw [h1 rfl]
    exact ⟨L, F, g⟩
  | @calloc h live n size h' p _ hn hs hc hp ih =>
    obtain ⟨L, F, g⟩ := ih
    obtain ⟨h'', r, e, _, _, h3⟩ := calloc_spec g.inv (size := size) hn
    rw [e] at hc
    obtain ⟨rfl, rfl⟩ := Prod.mk.inj (Option.some.inj hc)
    obtain ⟨cur, L', F', rfl, hcL, hcA, hi', t⟩ := h3 hp
    refine ⟨L', F', hi', by rw [t.buf]; exact g.bufE, by rw [t.len]; exact g.lenE,
      by rw [t.vf]; exact g.vf, ?_, ?_⟩
    · intro q hq
      by_cases hqc : q = cur + 64
      · subst hqc
        have h4 : cur + 64 - 64 = cur := by omega
        rw [h4]
        refine ⟨by omega, t.sub _ hcL, t.now, ?_⟩
        simp only [upd, if_true]; exact t.size
      · simp only [upd, if_neg hqc] at hq ⊢
        obtain ⟨o1, o2, o3, o4⟩ := g.own q hq
        have hne : q - 64 ≠ cur := by omega
        have hk := t.keep _ o2 hne
        exact ⟨o1, t.sub _ o2, by rw [hk.1]; exact o3, by rw [hk.2]; exact o4⟩
    · intro a ha h1
      by_cases hac : a = cur
      · subst hac
        have hns : n * size ≠ 0 := by
          intro h0
          have hz : n = 0 ∨ size = 0 := Nat.mul_eq_zero.1 h0
          have := (calloc_spec g.inv (size := size) hn)
          obtain ⟨_, _, e', _, hiff, _⟩ := this
          rw [e] at e'
          obtain ⟨_, hr⟩ := Prod.mk.inj (Option.some.inj e')
          exact hp (hr.trans (hiff.2 (hz.elim Or.inl fun h => Or.inr (Or.inl h))))
        simpa [upd] using hns
      · simp only [upd]
        rw [if_neg (by omega)]
        by_cases haL : a ∈ L
        · exact g.all a haL (by rw [← (t.keep a haL hac).1]; exact h1)
        · have := t.new a ha haL; omega
  | @free h live p h' _ hp hf ih =>
    obtain ⟨L, F, g⟩ := ih
    obtain ⟨o1, o2, o3, o4⟩ := g.own p hp
    obtain ⟨h'', L', F', i, fr, e⟩ := free_core g.inv o2 o3 (by omega)
    have hpe : p - 64 + 64 = p := by omega
    rw [hpe, hf, g.vf] at e
    obtain rfl : h' = h'' := by simpa using e
    refine ⟨L', F', i, by rw [fr.buf]; exact g.bufE, by rw [fr.len]; exact g.lenE,
      by rw [fr.vf]; exact g.vf, ?_, ?_⟩
    · intro q hq
      by_cases hqp : q = p
      · simp [upd, hqp] at hq
      · simp only [upd, if_neg hqp] at hq ⊢
        obtain ⟨q1, q2, q3, q4⟩ := g.own q hq
        have hu := (fr.used (q - 64)).2 ⟨q2, q3, by omega⟩
        exact ⟨q1, hu.1, hu.2, by rw [fr.size _ hu.1 hu.2]; exact q4⟩
    · intro a ha h1
      obtain ⟨h2, h3, h4⟩ := (fr.used a).1 ⟨ha, h1⟩
      simp only [upd]
      rw [if_neg (by omega)]
      exact g.all a h2 h3
  | write p i v _ hi _ ih =>
    obtain ⟨L, F, g⟩ := ih
    exact ⟨L, F, g.inv.mem_irrel _, g.bufE, g.lenE, g.vf, g.own, g.all⟩

/-! ### The property -/

variable {buf len : Nat} {h : Heap} {live : Live}

/-- No allocation and no free of a live address fails an assertion, follows a bad
pointer or loops for ever. -/
theorem C38_safe (hb : BufOk buf len) (hr : Reach buf len h live) :
    (∀ n size, n < W64 → size < W64 → ∃ h' p, calloc h n size = some (h', p)) ∧
    (∀ p, live p ≠ 0 → ∃ h', free h p = some h') := by
  obtain ⟨L, F, g⟩ := good hb hr
  constructor
  · intro n size hn _
    obtain ⟨h', r, e, _⟩ := calloc_spec g.inv (size := size) hn
    exact ⟨h', r, e⟩
  · intro p hp
    obtain ⟨o1, o2, o3, o4⟩ := g.own p hp
    obtain ⟨h', L', F', i, fr, e⟩ := free_core g.inv o2 o3 (by omega)
    have hpe : p - 64 + 64 = p := by omega
    rw [hpe, g.vf] at e
    exact ⟨h', by simpa using e⟩

/-- A live allocation is aligned and lies inside the buffer. -/
theorem C38_inside (hb : BufOk buf len) (hr : Reach buf len h live) {p : Nat} (hp : live p ≠ 0) :
    p % 8 = 0 ∧ buf ≤ p ∧ p + live p ≤ buf + len := by
  obtain ⟨L, F, g⟩ := good hb hr
  obtain ⟨o1, o2, o3, o4⟩ := g.own p hp
  have := g.inv.tile.bounds.2 _ o2
  have h1 := g.bufE
  have h2 := g.lenE
  have h3 := hb.large
  have h4 : skip buf < 8 := by unfold skip; omega
  omega

/-- Two live allocations do not overlap. -/
theorem C38_disjoint (hb : BufOk buf len) (hr : Reach buf len h live) {p q : Nat}
    (hp : live p ≠ 0) (hq : live q ≠ 0) (hne : p ≠ q) :
    p + live p ≤ q ∨ q + live q ≤ p := by
  obtain ⟨L, F, g⟩ := good hb hr
  obtain ⟨o1, o2, o3, o4⟩ := g.own p hp
  obtain ⟨q1, q2, q3, q4⟩ := g.own q hq
  have := g.inv.tile.disjoint o2 q2 (by omega)
  omega

/-- An allocation is new, zeroed, and changes no byte of any live allocation. -/
theorem C38_calloc (hb : BufOk buf len) (hr : Reach buf len h live) {n size p : Nat} {h' : Heap}
    (hn : n < W64) (hc : calloc h n size = some (h', p)) (hp : p ≠ 0) :
    live p = 0 ∧ (∀ i < n * size, h'.mem (p + i) = 0) ∧
    (∀ q i, i < live q → h'.mem (q + i) = h.mem (q + i)) := by
  obtain ⟨L, F, g⟩ := good hb hr
  obtain ⟨h'', r, e, _, _, h3⟩ := calloc_spec g.inv (size := size) hn
  rw [e] at hc
  obtain ⟨rfl, rfl⟩ := Prod.mk.inj (Option.some.inj hc)
  obtain ⟨cur, L', F', rfl, hcL, hcA, hi', t⟩ := h3 hp
  refine ⟨?_, ?_, ?_⟩
  · by_contra h0
    obtain ⟨_, _, o3, _⟩ := g.own _ h0
    have : cur + 64 - 64 = cur := by omega
    rw [this] at o3; omega
  · intro i hi
    exact t.zero _ (by omega) (by omega)
  · intro q i hi
    have hq : live q ≠ 0 := by omega
    obtain ⟨q1, q2, q3, q4⟩ := g.own q hq
    have hqc : q - 64 ≠ cur := by rintro rfl; omega
    have hk := t.keep _ q2 hqc
    have hq' := t.sub _ q2
    have hd := hi'.tile.disjoint hq' (t.sub _ hcL) hqc
    have hsz := t.size
    rw [hk.2] at hd
    rcases t.rest (q + i) (by omega) with h5 | ⟨a, ha, h6⟩
    · exact h5
    · exfalso
      by_cases haq : a = q - 64
      · omega
      · have hd2 := hi'.tile.disjoint hq' ha (Ne.symm haq)
        rw [hk.2] at hd2
        omega

/-- Freeing changes no byte of any other live allocation. -/
theorem C38_free (hb : BufOk buf len) (hr : Reach buf len h live) {p : Nat} {h' : Heap}
    (hp : live p ≠ 0) (hf : free h p = some h') :
    ∀ q i, q ≠ p → i < live q → h'.mem (q + i) = h.mem (q + i) := by
  obtain ⟨L, F, g⟩ := good hb hr
  obtain ⟨o1, o2, o3, o4⟩ := g.own p hp
  obtain ⟨h'', L', F', i, fr, e⟩ := free_core g.inv o2 o3 (by omega)
  have hpe : p - 64 + 64 = p := by omega
  rw [hpe, hf, g.vf] at e
  obtain rfl : h' = h'' := by simpa using e
  intro q j hqp hj
  obtain ⟨q1, q2, q3, q4⟩ := g.own q (by omega)
  rcases fr.mem (q + j) with h5 | ⟨a, ha, h6⟩
  · exact h5
  · exfalso
    by_cases haq : a = q - 64
    · omega
    · have hd2 := g.inv.tile.disjoint q2 ha (Ne.symm haq)
      omega

/-- Freeing an address that is not live, in particular one that has been freed already, stops
in an assertion: the heap is never damaged by it.  (An address that is not just behind a block
header is stopped in the model by `need (h.dom x)`; the code reads a header there and stops
unless the bytes happen to look like one.) -/
theorem C38_double_free (hb : BufOk buf len) (hr : Reach buf len h live) {p : Nat}
    (hp : live p = 0) (h0 : p ≠ 0) : free h p = none := by
  obtain ⟨L, F, g⟩ := good hb hr
  have hbuf := g.inv.buf0
  have hfirst := g.inv.first
  unfold free
  rw [if_neg (by omega)]
  by_cases h1 : p < h.buf ∨ p ≥ h.buf + h.len
  · simp [need, h1]
  by_cases h2 : h.dom (p - hsize) = true
  · have hL := (g.inv.dom _).1 h2
    have hbd := g.inv.tile.bounds.2 _ hL
    have hsz : hsize = 64 := rfl
    have h3 : (h.hdr (p - hsize)).alloc ≠ 1 := by
      intro h3
      have := g.all _ hL h3
      rw [hsz] at this hbd
      rw [show p - 64 + 64 = p by omega] at this
      exact this hp
    simp [need, h1, h2, h3]
  · simp [need, h1, h2]

/-- An allocation is refused exactly when the request is empty, does not fit a size, or
no free block is large enough. -/
theorem C38_null_iff (hb : BufOk buf len) (hr : Reach buf len h live) {n size : Nat}
    (hn : n < W64) :
    (∃ h', calloc h n size = some (h', 0)) ↔
      n * size = 0 ∨ n * size > W64 - 8 ∨
      ∀ a, h.dom a = true → (h.hdr a).alloc = 0 → (h.hdr a).size < (n * size + 7) / 8 * 8 := by
  obtain ⟨L, F, g⟩ := good hb hr
  obtain ⟨h', r, e, _, hiff, _⟩ := calloc_spec g.inv (size := size) hn
  have hru : roundUp (n * size) = (n * size + 7) / 8 * 8 := by
    unfold roundUp alignMult; split <;> omega
  have : (∃ h', calloc h n size = some (h', 0)) ↔ r = 0 := by
    rw [e]; simp [eq_comm]
  rw [this, hiff, Nat.mul_eq_zero, or_assoc, hru]
  simp only [g.inv.dom]

/-- No two neighbouring blocks are both free. -/
theorem C38_coalesced (hb : BufOk buf len) (hr : Reach buf len h live) {a : Nat}
    (ha : h.dom a = true) (h0 : (h.hdr a).alloc = 0) (hn : (h.hdr a).next ≠ 0) :
    (h.hdr (h.hdr a).next).alloc = 1 := by
  obtain ⟨L, F, g⟩ := good hb hr
  have haL := (g.inv.dom a).1 ha
  have ha0 := g.inv.mem_ne haL
  have := g.inv.adj a haL h0
  simp only [Heap.nx, if_neg ha0] at this
  exact this hn

/-- Once everything has been freed the heap is one free block again: any request that
fits the whole buffer (less one header and the alignment) is granted. -/
theorem C38_all_freed (hb : BufOk buf len) (hr : Reach buf len h live) (hz : ∀ p, live p = 0) :
    (∀ a, h.dom a = true ↔ a = buf + skip buf) ∧
    (h.hdr (buf + skip buf)).size = len - skip buf - 64 ∧
    ∀ n size, n < W64 → n * size ≠ 0 → (n * size + 7) / 8 * 8 ≤ len - skip buf - 64 →
      ∃ h' p, calloc h n size = some (h', p) ∧ p ≠ 0 := by
  obtain ⟨L, F, g⟩ := good hb hr
  have hfree : ∀ a ∈ L, (h.hdr a).alloc = 0 := by
    intro a ha
    have h1 := g.inv.alloc a ha
    by_contra h2
    exact g.all a ha (by omega) (hz _)
  have hsingle : L = [buf + skip buf] := by
    have hne := g.inv.ne
    have ht := g.inv.tile
    have hs := g.inv.seg
    cases hL : L with
    | nil => exact absurd hL hne
    | cons a t =>
      rw [hL] at ht hs
      simp only [Tile, Seg] at ht hs
      cases ht' : t with
      | nil => rw [← ht.1, g.bufE]
      | cons b t' =>
        rw [ht'] at hs
        simp only [Seg] at hs
        have h1 := g.inv.adj a (by rw [hL]; simp) (hfree a (by rw [hL]; simp))
          (by rw [hs.2.2.2.1]; exact hs.2.2.2.2.1)
        rw [hs.2.2.2.1] at h1
        have := hfree b (by rw [hL, ht']; simp)
        omega
  have hsz : (h.hdr (buf + skip buf)).size = len - skip buf - 64 := by
    have ht := g.inv.tile
    rw [hsingle] at ht
    simp only [Tile, g.bufE, g.lenE] at ht
    omega
  refine ⟨fun a => by rw [g.inv.dom, hsingle]; simp, hsz, ?_⟩
  intro n size hn h0 hfit
  have hbig : n * size ≤ W64 - 8 := by
    have := hb.fits; have := hb.ne; have := hb.large; omega
  obtain ⟨h', r, e⟩ := (C38_safe hb hr).1 n 0 hn (by decide)
  obtain ⟨h'', r', e', _, hiff, _⟩ := calloc_spec g.inv (size := size) hn
  refine ⟨h'', r', e', ?_⟩
  intro hr0
  have hnull := (C38_null_iff hb hr (size := size) hn).1 ⟨h'', by rw [e', hr0]⟩
  rcases hnull with h1 | h1 | h1
  · exact h0 h1
  · omega
  · have := h1 (buf + skip buf) ((g.inv.dom _).2 (by rw [hsingle]; simp))
      (hfree _ (by rw [hsingle]; simp))
    omega

/-- `mbedtls_memory_buffer_alloc_verify` always finds the heap sound. -/
theorem C38_verify (hb : BufOk buf len) (hr : Reach buf len h live) :
    verifyChain h = some true := by
  obtain ⟨L, F, g⟩ := good hb hr
  exact g.inv.verifyChain

/-- The check after a free is inverted: were it enabled
(`mbedtls_memory_buffer_set_verify`), every free would fail its assertion. -/
theorem C38_verify_free_inverted (hb : BufOk buf len) (hr : Reach buf len h live) {p : Nat}
    (hp : live p ≠ 0) : free { h with verifyFree := true } p = none := by
  obtain ⟨L, F, g⟩ := good hb hr
  obtain ⟨o1, o2, o3, o4⟩ := g.own p hp
  have hi : Inv { h with verifyFree := true } L F :=
    ⟨⟨g.inv.buf0, g.inv.end64, g.inv.first, g.inv.tile, g.inv.ne, g.inv.seg, g.inv.dom,
      g.inv.alloc, g.inv.magic⟩, g.inv.fseg, g.inv.fnd, g.inv.fmem, g.inv.fzero, g.inv.adj⟩
  obtain ⟨h', L', F', i, fr, e⟩ := free_core hi o2 o3 (show 0 < (h.hdr (p - 64)).size by omega)
  have hpe : p - 64 + 64 = p := by omega
  rw [hpe] at e
  rw [e]
  rfl

/-! ### What the checks find in a heap that is not sound -/

/-- A header nobody has written over, as far as it can be told from the header alone. -/
structure Spec.Sound (x : Hdr) : Prop where
  magic1 : x.magic1 = 0xFF00AA55
  magic2 : x.magic2 = 0xEE119966
  alloc : x.alloc = 0 ∨ x.alloc = 1
  around : x.prev = 0 ∨ x.prev ≠ x.next
  free : x.prevFree = 0 ∨ x.prevFree ≠ x.nextFree

/-- The blocks from `cur` on: sound headers, each with the address of the one before, until NULL. -/
inductive Spec.Chain (h : Heap) : Nat → Nat → Prop
  | nil (prv) : Spec.Chain h prv 0
  | cons {prv cur} : cur ≠ 0 → Spec.Sound (h.hdr cur) → (h.hdr cur).prev = prv → Spec.Chain h cur (h.hdr cur).next →
    Spec.Chain h prv cur

theorem Spec.Chain.inv {h : Heap} {prv cur : Nat} (c : Spec.Chain h prv cur) (h0 : cur ≠ 0) :
    Spec.Sound (h.hdr cur) ∧ (h.hdr cur).prev = prv ∧ Spec.Chain h cur (h.hdr cur).next := by
  cases c with
  | nil => exact absurd rfl h0
  | cons _ a b c => exact ⟨a, b, c⟩

theorem verifyHeader_iff (x : Hdr) : verifyHeader x = true ↔ Spec.Sound x := by
  unfold verifyHeader
  constructor
  · intro h
    simp only [Bool.and_eq_true, beq_iff_eq, decide_eq_true_eq, Bool.not_eq_true', Bool.and_eq_false_iff, bne_eq_false_iff_eq,
      beq_eq_false_iff_ne] at h
    obtain ⟨⟨⟨⟨h1, h2⟩, h3⟩, h4⟩, h5⟩ := h
    exact ⟨h1, h2, by omega, h4, h5⟩
  · rintro ⟨h1, h2, h3, h4, h5⟩
    have : x.alloc ≤ 1 := by omega
    simp only [Bool.and_eq_true, beq_iff_eq, decide_eq_true_eq, Bool.not_eq_true', Bool.and_eq_false_iff, bne_eq_false_iff_eq,
      beq_eq_false_iff_ne]
    exact ⟨⟨⟨⟨h1, h2⟩, this⟩, h4⟩, h5⟩

theorem verifyLoop_iff (h : Heap) : ∀ (fuel prv cur : Nat) (b : Bool), verifyLoop h fuel prv cur = some b →
    (b = true ↔ Spec.Chain h prv cur) := by
  intro fuel
  induction fuel with
  | zero => intro prv cur b e; cases e
  | succ fuel ih =>
    intro prv cur b e
    rw [verifyLoop] at e
    by_cases h0 : cur = 0
    · rw [if_pos h0] at e
      cases e
      subst h0
      exact ⟨fun _ => .nil _, fun _ => rfl⟩
    · rw [if_neg h0] at e
      cases hd : h.dom cur
      · rw [hd] at e; cases e
      · rw [hd] at e
        simp only [need, if_true, Option.bind_eq_bind, Option.bind_some] at e
        by_cases hv : verifyHeader (h.hdr cur) = true
        · rw [if_pos hv] at e
          by_cases hp : (h.hdr cur).prev = prv
          · rw [if_pos hp] at e
            rw [ih _ _ _ e]
            refine ⟨fun c => .cons h0 ((verifyHeader_iff _).1 hv) hp c, fun c => ?_⟩
            exact (c.inv h0).2.2
          · rw [if_neg hp] at e
            cases e
            refine ⟨fun x => (by cases x), fun c => ?_⟩
            exact absurd (c.inv h0).2.1 hp
        · rw [if_neg hv] at e
          cases e
          refine ⟨fun x => (by cases x), fun c => ?_⟩
          exact absurd ((verifyHeader_iff _).2 (c.inv h0).1) hv

/-- In any state of memory, corrupted or not, `verify_chain` answers whether the chain of blocks is sound, exactly (if it
answers: it follows the pointers it checks). -/
theorem C38_verify_exact (h : Heap) {b : Bool} (e : verifyChain h = some b) :
    b = true ↔ h.first ≠ 0 ∧ Spec.Chain h 0 h.first := by
  unfold verifyChain at e
  by_cases h0 : h.first = 0
  · rw [if_pos h0] at e
    cases e
    simp [h0]
  · rw [if_neg h0] at e
    cases hd : h.dom h.first
    · rw [hd] at e; cases e
    · rw [hd] at e
      simp only [need, if_true, Option.bind_eq_bind, Option.bind_some] at e
      by_cases hv : verifyHeader (h.hdr h.first) = true
      · rw [if_pos hv] at e
        by_cases hp : (h.hdr h.first).prev = 0
        · rw [if_neg (by simpa using hp)] at e
          rw [verifyLoop_iff h _ _ _ _ e]
          refine ⟨fun c => ⟨h0, .cons h0 ((verifyHeader_iff _).1 hv) hp c⟩, fun ⟨_, c⟩ => ?_⟩
          exact (c.inv h0).2.2
        · rw [if_pos hp] at e
          cases e
          refine ⟨fun x => (by cases x), fun ⟨_, c⟩ => ?_⟩
          exact absurd (c.inv h0).2.1 hp
      · rw [if_neg hv] at e
        cases e
        refine ⟨fun x => (by cases x), fun ⟨_, c⟩ => ?_⟩
        exact absurd ((verifyHeader_iff _).2 (c.inv h0).1) hv

/-- Freeing a block whose header has been written over, or that is not allocated, stops RMM. -/
theorem C38_free_checks (h : Heap) {p : Nat} (h0 : p ≠ 0) (h1 : h.buf ≠ 0) (h2 : h.first ≠ 0) {h' : Heap}
    (e : free h p = some h') : h.buf ≤ p ∧ p < h.buf + h.len ∧ Spec.Sound (h.hdr (p - 64)) ∧ (h.hdr (p - 64)).alloc = 1 := by
  unfold free at e
  rw [if_neg (by simp [h0, h1, h2])] at e
  simp only [Option.bind_eq_bind] at e
  have hb : ∀ (b : Bool) (f : Unit → Option Heap), (need b).bind f = some h' → b = true := by
    intro b f e; cases b
    · cases e
    · rfl
  have a1 := hb _ _ e
  rw [a1] at e
  simp only [need, if_true, Option.bind_some] at e
  have a2 := hb _ _ e
  rw [a2] at e
  simp only [need, if_true, Option.bind_some] at e
  have a3 := hb _ _ e
  rw [a3] at e
  simp only [need, if_true, Option.bind_some] at e
  have a4 := hb _ _ e
  have a1 := of_decide_eq_true a1
  exact ⟨by omega, by omega, (verifyHeader_iff _).1 a3, beq_iff_eq.1 a4⟩

/-! ### Concrete cases -/

/-- One block whose second magic number was written over by an overrun of the block before. -/
def hit : Heap :=
  { buf := 0x1000, len := 0x1000, first := 0x1000, dom := fun p => p == 0x1000 || p == 0x1100
    hdr := fun p => if p = 0x1000 then { size := 0xC0, magic1 := 0xFF00AA55, magic2 := 0xEE119966, next := 0x1100, alloc := 1 }
      else { size := 0xEC0, magic1 := 0xFF00AA55, magic2 := 0, prev := 0x1000, alloc := 1 } }

example : verifyChain hit = some false ∧ free hit 0x1140 = none ∧ ¬ Spec.Chain hit 0 0x1000 := by
  refine ⟨by decide, by decide, fun c => ?_⟩
  have := (C38_verify_exact hit (b := false) (by decide)).2 ⟨by decide, c⟩
  cases this
example : (free hit 0x1040).isSome = true ∧ Spec.Sound (hit.hdr 0x1000) :=
  ⟨by decide, ⟨rfl, rfl, Or.inr rfl, Or.inl rfl, Or.inl rfl⟩⟩

/-- A run: allocate 100, 200 and 300 bytes, free the second, then the first (merging
with the block after), then the third (merging with both neighbours). -/
def demo : Option (List Nat × List (Nat × Nat)) := do
  let h := init (fun _ => 170) 0x1004 0x1000
  let (h, a) ← calloc h 1 100
  let (h, b) ← calloc h 2 100
  let (h, c) ← calloc h 300 1
  let h ← free h b
  let s1 := (h.firstFree, (h.hdr h.firstFree).size)
  let h ← free h a
  let s2 := (h.firstFree, (h.hdr h.firstFree).size)
  let h ← free h c
  let s3 := (h.firstFree, (h.hdr h.firstFree).size)
  some ([a, b, c], [s1, s2, s3])

example : demo = some ([0x1048, 0x1048 + 104 + 64, 0x1048 + 104 + 64 + 200 + 64],
    [(0x1048 + 104, 200), (0x1008, 368), (0x1008, 0x1000 - 4 - 64)]) := by decide +kernel

/-- The hypotheses are met by a state with two live allocations. -/
theorem demo_state : ∃ h live, BufOk 0x1004 0x1000 ∧ Reach 0x1004 0x1000 h live ∧
    live 0x1048 = 100 ∧ live (0x1048 + 168) = 200 := by
  have hb : BufOk 0x1004 0x1000 := ⟨by decide, by decide, by decide⟩
  have h0 := Reach.init (buf := 0x1004) (len := 0x1000) (fun _ => 170)
  have c1 : ((calloc (init (fun _ => 170) 0x1004 0x1000) 1 100).map (·.2)) = some 0x1048 := by
    decide +kernel
  have c2 : ((calloc (init (fun _ => 170) 0x1004 0x1000) 1 100).bind
      fun r => (calloc r.1 2 100).map (·.2)) = some (0x1048 + 168) := by
    decide +kernel
  obtain ⟨h1, p1, e1⟩ := (C38_safe hb h0).1 1 100 (by decide) (by decide)
  rw [e1] at c1 c2
  obtain rfl : p1 = 0x1048 := by simpa using c1
  have r1 := Reach.calloc 1 100 h0 (by decide) (by decide) e1 (by decide)
  obtain ⟨h2, p2, e2⟩ := (C38_safe hb r1).1 2 100 (by decide) (by decide)
  simp only [Option.bind_some, e2, Option.map_some, Option.some.injEq] at c2
  obtain rfl : p2 = 0x1048 + 168 := c2
  exact ⟨h2, _, hb, Reach.calloc 2 100 r1 (by decide) (by decide) e2 (by decide), by simp [upd],
    by simp [upd]⟩

/-- Used by `C38_inside`, `C38_disjoint`, `C38_free` and `C38_verify_free_inverted`: a live
address; by `C38_all_freed`: a fresh heap. -/
example : ∃ h live p q, BufOk 0x1004 0x1000 ∧ Reach 0x1004 0x1000 h live ∧ live p ≠ 0 ∧
    live q ≠ 0 ∧ p ≠ q := by
  obtain ⟨h, live, hb, hr, h1, h2⟩ := demo_state
  exact ⟨h, live, _, _, hb, hr, by rw [h1]; decide, by rw [h2]; decide, by decide⟩

/-- A buffer too small for a header gives a heap from which nothing can be had. -/
example (m : Nat → Nat) (n size : Nat) :
    ∃ h', calloc (init m 0x1000 71) n size = some (h', 0) :=
  ⟨_, rfl⟩

end Verif.Heap
