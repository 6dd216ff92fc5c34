import Verif.Heap.Model
import Verif.Tac

/-! Doubly linked list segments over `next`/`prev` functions.  Helper lemmas only. -/

namespace Verif.Heap

/-- Walking `nx` from `a` visits the list and then reaches `z`; `pv` walks back.
NULL (0) serves as the head (`nx 0` is the list's first element) and as the end. -/
def Seg (nx pv : Nat → Nat) : Nat → List Nat → Nat → Prop
  | a, [], z => nx a = z ∧ (z ≠ 0 → pv z = a)
  | a, b :: t, z => nx a = b ∧ b ≠ 0 ∧ pv b = a ∧ Seg nx pv b t z

variable {nx pv nx' pv' : Nat → Nat}

theorem Seg.append {a z x : Nat} {A B : List Nat} :
    Seg nx pv a (A ++ x :: B) z ↔ Seg nx pv a A x ∧ x ≠ 0 ∧ Seg nx pv x B z := by
  induction A generalizing a with
  | nil => simp only [List.nil_append, Seg]; grind
  | cons b t ih => simp only [List.cons_append, Seg, ih]; grind

theorem Seg.congr {a z : Nat} {A : List Nat} (h : Seg nx pv a A z)
    (hn : ∀ x, x = a ∨ x ∈ A → nx' x = nx x) (hp : ∀ x, x = z ∨ x ∈ A → x ≠ 0 → pv' x = pv x) :
    Seg nx' pv' a A z := by
  induction A generalizing a with
  | nil => simp only [Seg] at *; grind
  | cons b t ih =>
    simp only [Seg] at *
    refine ⟨by grind, h.2.1, by grind, ih h.2.2.2 (by grind) (by grind)⟩

theorem Seg.last_mem {a x : Nat} {A : List Nat} (h : Seg nx pv a A x) (hx : x ≠ 0) :
    pv x = a ∨ pv x ∈ A := by
  induction A generalizing a with
  | nil => simp only [Seg] at h; grind
  | cons b t ih => simp only [Seg] at h; have := ih h.2.2.2; grind

theorem Seg.nx_last {a x : Nat} {A : List Nat} (h : Seg nx pv a A x) (hx : x ≠ 0) :
    nx (pv x) = x := by
  induction A generalizing a with
  | nil => simp only [Seg] at h; grind
  | cons b t ih => simp only [Seg] at h; exact ih h.2.2.2

theorem Seg.ne_zero {a z x : Nat} {A : List Nat} (h : Seg nx pv a A z) (hx : x ∈ A) : x ≠ 0 := by
  induction A generalizing a with
  | nil => simp at hx
  | cons b t ih => simp only [Seg] at h; have := ih h.2.2.2; grind

theorem Seg.head {a z : Nat} {A : List Nat} (h : Seg nx pv a A z) : nx a = A.headD z := by
  cases A <;> simp only [Seg] at h <;> simp [h.1]

theorem Seg.head_mem {a z : Nat} {A : List Nat} (h : Seg nx pv a A z) : nx a = z ∨ nx a ∈ A := by
  cases A <;> simp only [Seg] at h <;> simp [h.1]

/-- Redirect the end of a segment. -/
theorem Seg.retarget {a x y : Nat} {A : List Nat} (h : Seg nx pv a A x) (hx : x ≠ 0)
    (hnd : (a :: A).Nodup) (hy : y ∉ A) (hn : nx' (pv x) = y) (hp : y ≠ 0 → pv' y = pv x)
    (hn' : ∀ b, b = a ∨ b ∈ A → b ≠ pv x → nx' b = nx b)
    (hp' : ∀ b, b ∈ A → pv' b = pv b) : Seg nx' pv' a A y := by
  induction A generalizing a with
  | nil => simp only [Seg] at *; grind
  | cons b t ih =>
    simp only [Seg] at *
    have hl := h.2.2.2.last_mem hx
    refine ⟨by grind, h.2.1, by grind, ih h.2.2.2 (by grind) (by grind) (by grind) (by grind)⟩

/-- Redirect the start of a segment. -/
theorem Seg.rehead {a c z : Nat} {A : List Nat} (h : Seg nx pv a A z)
    (hnd : A.Nodup) (hz : z ∉ A) (hn : nx' c = nx a) (hp : nx a ≠ 0 → pv' (nx a) = c)
    (hn' : ∀ b, b ∈ A → nx' b = nx b)
    (hp' : ∀ b, (b = z ∨ b ∈ A) → b ≠ 0 → b ≠ nx a → pv' b = pv b) : Seg nx' pv' c A z := by
  cases A with
  | nil => simp only [Seg] at *; grind
  | cons b t =>
    simp only [Seg] at *
    refine ⟨by grind, h.2.1, by grind, h.2.2.2.congr (by grind) ?_⟩
    intro x hx h0
    apply hp' x (by grind) h0
    grind

/-- Unlink `x`. -/
theorem Seg.remove {x : Nat} {A B : List Nat} (h : Seg nx pv 0 (A ++ x :: B) 0)
    (hnd : (A ++ x :: B).Nodup)
    (hn : nx' (pv x) = nx x) (hp : nx x ≠ 0 → pv' (nx x) = pv x)
    (hn' : ∀ b, b = 0 ∨ b ∈ A ++ B → b ≠ pv x → nx' b = nx b)
    (hp' : ∀ b, b ∈ A ++ B → b ≠ nx x → pv' b = pv b) : Seg nx' pv' 0 (A ++ B) 0 := by
  have h0 : (0 : Nat) ∉ A ++ x :: B := fun hm => h.ne_zero hm rfl
  obtain ⟨h1, hx, h2⟩ := Seg.append.1 h
  have hhm := h2.head_mem
  have hlm := h1.last_mem hx
  have h1' : Seg nx' pv' 0 A (nx x) := by
    refine h1.retarget hx (by grind) (by grind) hn hp (by grind) (by grind)
  cases B with
  | nil => simp only [Seg] at h2; simpa [h2.1] using h1'
  | cons b t =>
    simp only [Seg] at h2
    rw [Seg.append]
    refine ⟨by rw [← h2.1]; exact h1', h2.2.1, h2.2.2.2.congr (by grind) (by grind)⟩

/-- Put `y` in the place of `x`. -/
theorem Seg.replace {x y : Nat} {A B : List Nat} (h : Seg nx pv 0 (A ++ x :: B) 0)
    (hnd : (A ++ x :: B).Nodup) (hy : y ∉ A ++ B) (hy0 : y ≠ 0)
    (hn : nx' (pv x) = y) (hp : pv' y = pv x)
    (hnx : nx' y = nx x) (hpx : nx x ≠ 0 → pv' (nx x) = y)
    (hn' : ∀ b, b = 0 ∨ b ∈ A ++ B → b ≠ pv x → nx' b = nx b)
    (hp' : ∀ b, b ∈ A ++ B → b ≠ nx x → pv' b = pv b) : Seg nx' pv' 0 (A ++ y :: B) 0 := by
  have h0 : (0 : Nat) ∉ A ++ x :: B := fun hm => h.ne_zero hm rfl
  obtain ⟨h1, hx, h2⟩ := Seg.append.1 h
  have hhm := h2.head_mem
  have hlm := h1.last_mem hx
  rw [Seg.append]
  exact ⟨h1.retarget hx (by grind) (by grind) hn (fun _ => hp) (by grind) (by grind), hy0,
    h2.rehead (by grind) (by grind) hnx hpx (by grind) (by grind)⟩

/-- Insert `y` after `x`. -/
theorem Seg.insert {x y : Nat} {A B : List Nat} (h : Seg nx pv 0 (A ++ x :: B) 0)
    (hnd : (A ++ x :: B).Nodup) (hy : y ∉ A ++ x :: B) (hy0 : y ≠ 0)
    (hn : nx' x = y) (hp : pv' y = x)
    (hnx : nx' y = nx x) (hpx : nx x ≠ 0 → pv' (nx x) = y)
    (hn' : ∀ b, b = 0 ∨ b ∈ A ++ B → nx' b = nx b)
    (hp' : ∀ b, b ∈ A ++ x :: B → b ≠ nx x → pv' b = pv b) :
    Seg nx' pv' 0 (A ++ x :: y :: B) 0 := by
  have h0 : (0 : Nat) ∉ A ++ x :: B := fun hm => h.ne_zero hm rfl
  obtain ⟨h1, hx, h2⟩ := Seg.append.1 h
  have hhm := h2.head_mem
  rw [Seg.append]
  refine ⟨h1.congr (by grind) (by grind), hx, ?_⟩
  exact ⟨hn, hy0, hp, h2.rehead (by grind) (by grind) hnx hpx (by grind) (by grind)⟩

/-- Add `y` at the front. -/
theorem Seg.push {y : Nat} {A : List Nat} (h : Seg nx pv 0 A 0) (hnd : A.Nodup)
    (hy : y ∉ A) (hy0 : y ≠ 0) (hn : nx' 0 = y) (hp : pv' y = 0)
    (hnx : nx' y = nx 0) (hpx : nx 0 ≠ 0 → pv' (nx 0) = y)
    (hn' : ∀ b, b ∈ A → nx' b = nx b)
    (hp' : ∀ b, b ∈ A → b ≠ nx 0 → pv' b = pv b) : Seg nx' pv' 0 (y :: A) 0 := by
  have h0 : (0 : Nat) ∉ A := fun hm => h.ne_zero hm rfl
  exact ⟨hn, hy0, hp, h.rehead hnd h0 hnx hpx hn' (by grind)⟩

/-- `x` is removed from the block after `p`. -/
theorem Seg.neighbours {p x : Nat} {A B : List Nat} (h : Seg nx pv 0 (A ++ p :: x :: B) 0) :
    nx p = x ∧ pv x = p ∧ p ≠ 0 ∧ x ≠ 0 := by
  obtain ⟨_, hp, h2⟩ := Seg.append.1 h
  simp only [Seg] at h2
  grind

theorem Seg.split_next {x : Nat} {L : List Nat} (h : Seg nx pv 0 L 0) (hx : x ∈ L)
    (hn : nx x ≠ 0) : ∃ A B, L = A ++ x :: nx x :: B := by
  obtain ⟨A, B, rfl⟩ := List.append_of_mem hx
  obtain ⟨_, _, h2⟩ := Seg.append.1 h
  cases B with
  | nil => simp only [Seg] at h2; grind
  | cons b t => simp only [Seg] at h2; exact ⟨A, t, by rw [h2.1]⟩

theorem Seg.split_prev {x : Nat} {L : List Nat} (h : Seg nx pv 0 L 0) (hx : x ∈ L)
    (hn : pv x ≠ 0) : ∃ A B, L = A ++ pv x :: x :: B := by
  obtain ⟨A, B, rfl⟩ := List.append_of_mem hx
  obtain ⟨h1, hx0, _⟩ := Seg.append.1 h
  have hm := (h1.last_mem hx0).resolve_left hn
  have hl := h1.nx_last hx0
  have := h.split_next (x := pv x) (by simp [hm]) (by rw [hl]; exact hx0)
  rwa [hl] at this

end Verif.Heap
