import Verif.Heap.Seg

/-! The heap invariant and its preservation.  Helper lemmas only. -/

namespace Verif.Heap

namespace Heap

def nx (h : Heap) (a : Nat) : Nat := if a = 0 then h.first else (h.hdr a).next
def pv (h : Heap) (a : Nat) : Nat := (h.hdr a).prev
def nf (h : Heap) (a : Nat) : Nat := if a = 0 then h.firstFree else (h.hdr a).nextFree
def pf (h : Heap) (a : Nat) : Nat := (h.hdr a).prevFree

end Heap

/-- The blocks tile the buffer from `a` to `e`. -/
def Tile (sz : Nat → Nat) : Nat → List Nat → Nat → Prop
  | a, [], e => a = e
  | a, b :: t, e => a = b ∧ a % 8 = 0 ∧ Tile sz (a + 64 + sz a) t e

/-- Everything but the rules on the free list. -/
structure Base (h : Heap) (L : List Nat) : Prop where
  buf0 : h.buf ≠ 0
  end64 : h.buf + h.len ≤ W64
  first : h.first = h.buf
  tile : Tile (fun a => (h.hdr a).size) h.buf L (h.buf + h.len)
  ne : L ≠ []
  seg : Seg h.nx h.pv 0 L 0
  dom : ∀ a, h.dom a = true ↔ a ∈ L
  alloc : ∀ a ∈ L, (h.hdr a).alloc ≤ 1
  magic : ∀ a ∈ L, (h.hdr a).magic1 = MAGIC1 ∧ (h.hdr a).magic2 = MAGIC2

structure Inv (h : Heap) (L F : List Nat) : Prop extends Base h L where
  fseg : Seg h.nf h.pf 0 F 0
  fnd : F.Nodup
  fmem : ∀ a, a ∈ F ↔ a ∈ L ∧ (h.hdr a).alloc = 0
  fzero : ∀ a ∈ L, (h.hdr a).alloc = 1 → h.nf a = 0 ∧ h.pf a = 0
  adj : ∀ a ∈ L, (h.hdr a).alloc = 0 → h.nx a ≠ 0 → (h.hdr (h.nx a)).alloc = 1

theorem Tile.bounds {sz : Nat → Nat} {a e : Nat} {L : List Nat} (h : Tile sz a L e) :
    a ≤ e ∧ ∀ b ∈ L, a ≤ b ∧ b % 8 = 0 ∧ b + 64 + sz b ≤ e := by
  induction L generalizing a with
  | nil => simp only [Tile] at h; simp; omega
  | cons c t ih =>
    simp only [Tile] at h
    obtain ⟨rfl, h8, h2⟩ := h
    have := ih h2
    refine ⟨by omega, ?_⟩
    intro b hb
    rcases List.mem_cons.1 hb with rfl | hb
    · omega
    · have := this.2 b hb; omega

/-- Two blocks of a tiling do not overlap. -/
theorem Tile.disjoint {sz : Nat → Nat} {a e : Nat} {L : List Nat} (h : Tile sz a L e)
    {b c : Nat} (hb : b ∈ L) (hc : c ∈ L) (hne : b ≠ c) :
    b + 64 + sz b ≤ c ∨ c + 64 + sz c ≤ b := by
  induction L generalizing a with
  | nil => simp at hb
  | cons d t ih =>
    simp only [Tile] at h
    obtain ⟨rfl, h8, h2⟩ := h
    have hbd := h2.bounds.2
    rcases List.mem_cons.1 hb with rfl | hb' <;> rcases List.mem_cons.1 hc with rfl | hc'
    · exact absurd rfl hne
    · left; have := hbd c hc'; omega
    · right; have := hbd b hb'; omega
    · exact ih h2 hb' hc'

theorem Tile.nodup {sz : Nat → Nat} {a e : Nat} {L : List Nat} (h : Tile sz a L e) : L.Nodup := by
  induction L generalizing a with
  | nil => simp
  | cons d t ih =>
    simp only [Tile] at h
    obtain ⟨rfl, h8, h2⟩ := h
    have hbd := h2.bounds.2
    refine List.nodup_cons.2 ⟨?_, ih h2⟩
    intro hm
    have := hbd _ hm
    omega

theorem Tile.append {sz : Nat → Nat} {a e x : Nat} {A B : List Nat} :
    Tile sz a (A ++ x :: B) e ↔ Tile sz a A x ∧ x % 8 = 0 ∧ Tile sz (x + 64 + sz x) B e := by
  induction A generalizing a with
  | nil => simp only [List.nil_append, Tile]; grind
  | cons b t ih => simp only [List.cons_append, Tile, ih]; grind

theorem Tile.congr {sz sz' : Nat → Nat} {a e : Nat} {L : List Nat} (h : Tile sz a L e)
    (hs : ∀ x ∈ L, sz' x = sz x) : Tile sz' a L e := by
  induction L generalizing a with
  | nil => exact h
  | cons b t ih =>
    simp only [Tile] at *
    obtain ⟨rfl, h8, h2⟩ := h
    refine ⟨rfl, h8, ?_⟩
    rw [hs _ (by simp)]
    exact ih h2 (fun x hx => hs x (by simp [hx]))

/-- Splitting a block. -/
theorem Tile.split {sz sz' : Nat → Nat} {a e x y : Nat} {A B : List Nat}
    (h : Tile sz a (A ++ x :: B) e) (hy : y = x + 64 + sz' x) (h8 : y % 8 = 0)
    (hsz : y + 64 + sz' y = x + 64 + sz x)
    (hs : ∀ b ∈ A ++ B, sz' b = sz b) : Tile sz' a (A ++ x :: y :: B) e := by
  obtain ⟨h1, hx8, h2⟩ := Tile.append.1 h
  rw [Tile.append]
  refine ⟨h1.congr (by grind), hx8, ?_⟩
  refine ⟨by omega, by omega, ?_⟩
  have : x + 64 + sz' x + 64 + sz' (x + 64 + sz' x) = x + 64 + sz x := by rw [← hy]; omega
  rw [this]
  exact h2.congr (by grind)

/-- Merging a block with the next. -/
theorem Tile.merge {sz sz' : Nat → Nat} {a e x y : Nat} {A B : List Nat}
    (h : Tile sz a (A ++ x :: y :: B) e)
    (hsz : sz' x = sz x + 64 + sz y)
    (hs : ∀ b ∈ A ++ B, sz' b = sz b) : Tile sz' a (A ++ x :: B) e := by
  obtain ⟨h1, hx8, h2⟩ := Tile.append.1 h
  simp only [Tile] at h2
  rw [Tile.append]
  refine ⟨h1.congr (by grind), hx8, ?_⟩
  have : x + 64 + sz' x = x + 64 + sz x + 64 + sz (x + 64 + sz x) := by
    rw [hsz, h2.1]; omega
  rw [this]
  exact h2.2.2.congr (by grind)

section
variable (h : Heap) (p v a : Nat) (f : Hdr → Hdr)

theorem wr_hdr : (h.wr p f).hdr a = if a = p then f (h.hdr p) else h.hdr a := rfl
@[simp] theorem wr_dom : (h.wr p f).dom = h.dom := rfl
@[simp] theorem wr_buf : (h.wr p f).buf = h.buf := rfl
@[simp] theorem wr_len : (h.wr p f).len = h.len := rfl
@[simp] theorem wr_first : (h.wr p f).first = h.first := rfl
@[simp] theorem wr_firstFree : (h.wr p f).firstFree = h.firstFree := rfl
@[simp] theorem wr_va : (h.wr p f).verifyAlloc = h.verifyAlloc := rfl
@[simp] theorem wr_vf : (h.wr p f).verifyFree = h.verifyFree := rfl
@[simp] theorem wr_mem : (h.wr p f).mem = fill h.mem p 64 256 := rfl

theorem setNf_hdr : (h.setNf p v).hdr a =
    if a = p ∧ p ≠ 0 then { h.hdr p with nextFree := v } else h.hdr a := by
  unfold Heap.setNf; by_cases hp : p = 0 <;> simp [hp, wr_hdr]
@[simp] theorem setNf_dom : (h.setNf p v).dom = h.dom := by
  unfold Heap.setNf; split <;> rfl
@[simp] theorem setNf_buf : (h.setNf p v).buf = h.buf := by
  unfold Heap.setNf; split <;> rfl
@[simp] theorem setNf_len : (h.setNf p v).len = h.len := by
  unfold Heap.setNf; split <;> rfl
@[simp] theorem setNf_first : (h.setNf p v).first = h.first := by
  unfold Heap.setNf; split <;> rfl
@[simp] theorem setNf_firstFree : (h.setNf p v).firstFree = if p = 0 then v else h.firstFree := by
  unfold Heap.setNf; by_cases hp : p = 0 <;> simp [hp]
@[simp] theorem setNf_va : (h.setNf p v).verifyAlloc = h.verifyAlloc := by
  unfold Heap.setNf; split <;> rfl
@[simp] theorem setNf_vf : (h.setNf p v).verifyFree = h.verifyFree := by
  unfold Heap.setNf; split <;> rfl
@[simp] theorem setNf_mem : (h.setNf p v).mem = if p = 0 then h.mem else fill h.mem p 64 256 := by
  unfold Heap.setNf; by_cases hp : p = 0 <;> simp [hp]

theorem setPf_hdr : (h.setPf p v).hdr a =
    if a = p ∧ p ≠ 0 then { h.hdr p with prevFree := v } else h.hdr a := by
  unfold Heap.setPf; by_cases hp : p = 0 <;> simp [hp, wr_hdr]
@[simp] theorem setPf_dom : (h.setPf p v).dom = h.dom := by
  unfold Heap.setPf; split <;> rfl
@[simp] theorem setPf_buf : (h.setPf p v).buf = h.buf := by
  unfold Heap.setPf; split <;> rfl
@[simp] theorem setPf_len : (h.setPf p v).len = h.len := by
  unfold Heap.setPf; split <;> rfl
@[simp] theorem setPf_first : (h.setPf p v).first = h.first := by
  unfold Heap.setPf; split <;> rfl
@[simp] theorem setPf_firstFree : (h.setPf p v).firstFree = h.firstFree := by
  unfold Heap.setPf; split <;> rfl
@[simp] theorem setPf_va : (h.setPf p v).verifyAlloc = h.verifyAlloc := by
  unfold Heap.setPf; split <;> rfl
@[simp] theorem setPf_vf : (h.setPf p v).verifyFree = h.verifyFree := by
  unfold Heap.setPf; split <;> rfl
@[simp] theorem setPf_mem : (h.setPf p v).mem = if p = 0 then h.mem else fill h.mem p 64 256 := by
  unfold Heap.setPf; by_cases hp : p = 0 <;> simp [hp]

theorem setPrev_hdr : (h.setPrev p v).hdr a =
    if a = p ∧ p ≠ 0 then { h.hdr p with prev := v } else h.hdr a := by
  unfold Heap.setPrev; by_cases hp : p = 0 <;> simp [hp, wr_hdr]
@[simp] theorem setPrev_dom : (h.setPrev p v).dom = h.dom := by
  unfold Heap.setPrev; split <;> rfl
@[simp] theorem setPrev_buf : (h.setPrev p v).buf = h.buf := by
  unfold Heap.setPrev; split <;> rfl
@[simp] theorem setPrev_len : (h.setPrev p v).len = h.len := by
  unfold Heap.setPrev; split <;> rfl
@[simp] theorem setPrev_first : (h.setPrev p v).first = h.first := by
  unfold Heap.setPrev; split <;> rfl
@[simp] theorem setPrev_firstFree : (h.setPrev p v).firstFree = h.firstFree := by
  unfold Heap.setPrev; split <;> rfl
@[simp] theorem setPrev_va : (h.setPrev p v).verifyAlloc = h.verifyAlloc := by
  unfold Heap.setPrev; split <;> rfl
@[simp] theorem setPrev_vf : (h.setPrev p v).verifyFree = h.verifyFree := by
  unfold Heap.setPrev; split <;> rfl
@[simp] theorem setPrev_mem :
    (h.setPrev p v).mem = if p = 0 then h.mem else fill h.mem p 64 256 := by
  unfold Heap.setPrev; by_cases hp : p = 0 <;> simp [hp]

theorem erase_hdr : (h.erase p).hdr a = if a = p then {} else h.hdr a := rfl
@[simp] theorem erase_dom : (h.erase p).dom a = if a = p then false else h.dom a := rfl
@[simp] theorem erase_buf : (h.erase p).buf = h.buf := rfl
@[simp] theorem erase_len : (h.erase p).len = h.len := rfl
@[simp] theorem erase_first : (h.erase p).first = h.first := rfl
@[simp] theorem erase_firstFree : (h.erase p).firstFree = h.firstFree := rfl
@[simp] theorem erase_va : (h.erase p).verifyAlloc = h.verifyAlloc := rfl
@[simp] theorem erase_vf : (h.erase p).verifyFree = h.verifyFree := rfl
@[simp] theorem erase_mem : (h.erase p).mem = fill h.mem p 64 0 := rfl
end

/-! Each setter, field by field. -/
section
variable (h : Heap) (p v a : Nat) (f : Hdr → Hdr)
theorem wr_magic1 : ((h.wr p f).hdr a).magic1 = if a = p then (f (h.hdr p)).magic1 else (h.hdr a).magic1 := by
  rw [wr_hdr]; split <;> rfl
theorem setNf_magic1 : ((h.setNf p v).hdr a).magic1 = (h.hdr a).magic1 := by
  rw [setNf_hdr]; split
  · next hh => rw [hh.1]
  · rfl
theorem setPf_magic1 : ((h.setPf p v).hdr a).magic1 = (h.hdr a).magic1 := by
  rw [setPf_hdr]; split
  · next hh => rw [hh.1]
  · rfl
theorem setPrev_magic1 : ((h.setPrev p v).hdr a).magic1 = (h.hdr a).magic1 := by
  rw [setPrev_hdr]; split
  · next hh => rw [hh.1]
  · rfl
theorem erase_magic1 : ((h.erase p).hdr a).magic1 = if a = p then 0 else (h.hdr a).magic1 := by
  rw [erase_hdr]; split <;> rfl
theorem wr_size : ((h.wr p f).hdr a).size = if a = p then (f (h.hdr p)).size else (h.hdr a).size := by
  rw [wr_hdr]; split <;> rfl
theorem setNf_size : ((h.setNf p v).hdr a).size = (h.hdr a).size := by
  rw [setNf_hdr]; split
  · next hh => rw [hh.1]
  · rfl
theorem setPf_size : ((h.setPf p v).hdr a).size = (h.hdr a).size := by
  rw [setPf_hdr]; split
  · next hh => rw [hh.1]
  · rfl
theorem setPrev_size : ((h.setPrev p v).hdr a).size = (h.hdr a).size := by
  rw [setPrev_hdr]; split
  · next hh => rw [hh.1]
  · rfl
theorem erase_size : ((h.erase p).hdr a).size = if a = p then 0 else (h.hdr a).size := by
  rw [erase_hdr]; split <;> rfl
theorem wr_alloc : ((h.wr p f).hdr a).alloc = if a = p then (f (h.hdr p)).alloc else (h.hdr a).alloc := by
  rw [wr_hdr]; split <;> rfl
theorem setNf_alloc : ((h.setNf p v).hdr a).alloc = (h.hdr a).alloc := by
  rw [setNf_hdr]; split
  · next hh => rw [hh.1]
  · rfl
theorem setPf_alloc : ((h.setPf p v).hdr a).alloc = (h.hdr a).alloc := by
  rw [setPf_hdr]; split
  · next hh => rw [hh.1]
  · rfl
theorem setPrev_alloc : ((h.setPrev p v).hdr a).alloc = (h.hdr a).alloc := by
  rw [setPrev_hdr]; split
  · next hh => rw [hh.1]
  · rfl
theorem erase_alloc : ((h.erase p).hdr a).alloc = if a = p then 0 else (h.hdr a).alloc := by
  rw [erase_hdr]; split <;> rfl
theorem wr_prev : ((h.wr p f).hdr a).prev = if a = p then (f (h.hdr p)).prev else (h.hdr a).prev := by
  rw [wr_hdr]; split <;> rfl
theorem setNf_prev : ((h.setNf p v).hdr a).prev = (h.hdr a).prev := by
  rw [setNf_hdr]; split
  · next hh => rw [hh.1]
  · rfl
theorem setPf_prev : ((h.setPf p v).hdr a).prev = (h.hdr a).prev := by
  rw [setPf_hdr]; split
  · next hh => rw [hh.1]
  · rfl
theorem setPrev_prev : ((h.setPrev p v).hdr a).prev = if a = p ∧ p ≠ 0 then v else (h.hdr a).prev := by
  rw [setPrev_hdr]; split <;> rfl
theorem erase_prev : ((h.erase p).hdr a).prev = if a = p then 0 else (h.hdr a).prev := by
  rw [erase_hdr]; split <;> rfl
theorem wr_next : ((h.wr p f).hdr a).next = if a = p then (f (h.hdr p)).next else (h.hdr a).next := by
  rw [wr_hdr]; split <;> rfl
theorem setNf_next : ((h.setNf p v).hdr a).next = (h.hdr a).next := by
  rw [setNf_hdr]; split
  · next hh => rw [hh.1]
  · rfl
theorem setPf_next : ((h.setPf p v).hdr a).next = (h.hdr a).next := by
  rw [setPf_hdr]; split
  · next hh => rw [hh.1]
  · rfl
theorem setPrev_next : ((h.setPrev p v).hdr a).next = (h.hdr a).next := by
  rw [setPrev_hdr]; split
  · next hh => rw [hh.1]
  · rfl
theorem erase_next : ((h.erase p).hdr a).next = if a = p then 0 else (h.hdr a).next := by
  rw [erase_hdr]; split <;> rfl
theorem wr_prevFree : ((h.wr p f).hdr a).prevFree = if a = p then (f (h.hdr p)).prevFree else (h.hdr a).prevFree := by
  rw [wr_hdr]; split <;> rfl
theorem setNf_prevFree : ((h.setNf p v).hdr a).prevFree = (h.hdr a).prevFree := by
  rw [setNf_hdr]; split
  · next hh => rw [hh.1]
  · rfl
theorem setPf_prevFree : ((h.setPf p v).hdr a).prevFree = if a = p ∧ p ≠ 0 then v else (h.hdr a).prevFree := by
  rw [setPf_hdr]; split <;> rfl
theorem setPrev_prevFree : ((h.setPrev p v).hdr a).prevFree = (h.hdr a).prevFree := by
  rw [setPrev_hdr]; split
  · next hh => rw [hh.1]
  · rfl
theorem erase_prevFree : ((h.erase p).hdr a).prevFree = if a = p then 0 else (h.hdr a).prevFree := by
  rw [erase_hdr]; split <;> rfl
theorem wr_nextFree : ((h.wr p f).hdr a).nextFree = if a = p then (f (h.hdr p)).nextFree else (h.hdr a).nextFree := by
  rw [wr_hdr]; split <;> rfl
theorem setNf_nextFree : ((h.setNf p v).hdr a).nextFree = if a = p ∧ p ≠ 0 then v else (h.hdr a).nextFree := by
  rw [setNf_hdr]; split <;> rfl
theorem setPf_nextFree : ((h.setPf p v).hdr a).nextFree = (h.hdr a).nextFree := by
  rw [setPf_hdr]; split
  · next hh => rw [hh.1]
  · rfl
theorem setPrev_nextFree : ((h.setPrev p v).hdr a).nextFree = (h.hdr a).nextFree := by
  rw [setPrev_hdr]; split
  · next hh => rw [hh.1]
  · rfl
theorem erase_nextFree : ((h.erase p).hdr a).nextFree = if a = p then 0 else (h.hdr a).nextFree := by
  rw [erase_hdr]; split <;> rfl
theorem wr_magic2 : ((h.wr p f).hdr a).magic2 = if a = p then (f (h.hdr p)).magic2 else (h.hdr a).magic2 := by
  rw [wr_hdr]; split <;> rfl
theorem setNf_magic2 : ((h.setNf p v).hdr a).magic2 = (h.hdr a).magic2 := by
  rw [setNf_hdr]; split
  · next hh => rw [hh.1]
  · rfl
theorem setPf_magic2 : ((h.setPf p v).hdr a).magic2 = (h.hdr a).magic2 := by
  rw [setPf_hdr]; split
  · next hh => rw [hh.1]
  · rfl
theorem setPrev_magic2 : ((h.setPrev p v).hdr a).magic2 = (h.hdr a).magic2 := by
  rw [setPrev_hdr]; split
  · next hh => rw [hh.1]
  · rfl
theorem erase_magic2 : ((h.erase p).hdr a).magic2 = if a = p then 0 else (h.hdr a).magic2 := by
  rw [erase_hdr]; split <;> rfl
end

@[simp] theorem need_true : need true = some () := rfl

/-- Rewrites the fields of an explicitly given heap. -/
macro "heap_simp" : tactic => `(tactic| simp only [wr_magic1, setNf_magic1, setPf_magic1, setPrev_magic1, erase_magic1, wr_size, setNf_size, setPf_size, setPrev_size, erase_size, wr_alloc, setNf_alloc, setPf_alloc, setPrev_alloc, erase_alloc, wr_prev, setNf_prev, setPf_prev, setPrev_prev, erase_prev, wr_next, setNf_next, setPf_next, setPrev_next, erase_next, wr_prevFree, setNf_prevFree, setPf_prevFree, setPrev_prevFree, erase_prevFree, wr_nextFree, setNf_nextFree, setPf_nextFree, setPrev_nextFree, erase_nextFree, wr_magic2, setNf_magic2, setPf_magic2, setPrev_magic2, erase_magic2, wr_dom, wr_buf, wr_len, wr_first, wr_firstFree, wr_va, wr_vf, setNf_dom, setNf_buf, setNf_len, setNf_first, setNf_firstFree, setNf_va, setNf_vf, setPf_dom, setPf_buf, setPf_len, setPf_first, setPf_firstFree, setPf_va, setPf_vf, setPrev_dom, setPrev_buf, setPrev_len, setPrev_first, setPrev_firstFree, setPrev_va, setPrev_vf, erase_dom, erase_buf, erase_len, erase_first, erase_firstFree, erase_va, erase_vf])

end Verif.Heap
