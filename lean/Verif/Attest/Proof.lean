import Verif.Attest.Model

namespace Verif.Attest

open Cbor

/-! ## Heads -/

theorem be_length (k : Nat) : ∀ n, (be k n).length = k := by
  induction k with
  | zero => intro n; rfl
  | succ k ih => intro n; simp [be, ih]

theorem be_fold (k : Nat) : ∀ n x, (be k n).foldl (fun x (b : Byte) => x * 256 + b.toNat) x = x * 256 ^ k + n % 256 ^ k := by
  induction k with
  | zero => intro n x; simp [be, Nat.mod_one]
  | succ k ih =>
    intro n x
    simp only [be, List.foldl_append, ih, List.foldl_cons, List.foldl_nil, BitVec.toNat_ofNat]
    have h1 : n % 256 % 2 ^ 8 = n % 256 := Nat.mod_eq_of_lt (Nat.mod_lt _ (by decide))
    have h2 : n % 256 ^ (k + 1) = n % 256 + 256 * (n / 256 % 256 ^ k) := by
      rw [Nat.pow_succ, Nat.mul_comm, Nat.mod_mul]
    rw [h1, h2, Nat.pow_succ]
    ring

theorem number_be (k n : Nat) (r : List Byte) (h : n < 256 ^ k) : number k (be k n ++ r) = some (n, r) := by
  have hl := be_length k n
  unfold number
  rw [if_neg (by simp [hl]), List.take_append_of_le_length (by omega), List.drop_append_of_le_length (by omega)]
  rw [List.take_of_length_le (by omega), List.drop_of_length_le (by omega), be_fold]
  simp [Nat.mod_eq_of_lt h]

theorem getHead_head {m n : Nat} (r : List Byte) (hm : m < 8) (hn : n < 2 ^ 64) :
    getHead (head m n ++ r) = some (m, n, r) := by
  unfold head
  have key : ∀ a, a < 32 → (BitVec.ofNat 8 (32 * m + a)).toNat = 32 * m + a := by
    intro a ha
    rw [BitVec.toNat_ofNat, Nat.mod_eq_of_lt (by omega)]
  by_cases h1 : n < 24
  · rw [if_pos h1]
    simp only [List.cons_append, List.nil_append, getHead, key n (by omega)]
    rw [show (32 * m + n) % 32 = n by omega, show (32 * m + n) / 32 = m by omega, if_pos h1]
  rw [if_neg h1]
  by_cases h2 : n < 2 ^ 8
  · rw [if_pos h2]
    simp only [List.cons_append, getHead, key 24 (by omega), show (32 * m + 24) % 32 = 24 by omega, show (32 * m + 24) / 32 = m by omega]
    simp [number_be 1 n r (by omega)]
  rw [if_neg h2]
  by_cases h3 : n < 2 ^ 16
  · rw [if_pos h3]
    simp only [List.cons_append, getHead, key 25 (by omega), show (32 * m + 25) % 32 = 25 by omega, show (32 * m + 25) / 32 = m by omega]
    simp [number_be 2 n r (by omega)]
  rw [if_neg h3]
  by_cases h4 : n < 2 ^ 32
  · rw [if_pos h4]
    simp only [List.cons_append, getHead, key 26 (by omega), show (32 * m + 26) % 32 = 26 by omega, show (32 * m + 26) / 32 = m by omega]
    simp [number_be 4 n r (by omega)]
  rw [if_neg h4]
  simp only [List.cons_append, getHead, key 27 (by omega), show (32 * m + 27) % 32 = 27 by omega, show (32 * m + 27) / 32 = m by omega]
  simp [number_be 8 n r (by omega)]

theorem head_pos (m n : Nat) : 1 ≤ (head m n).length := by
  unfold head; split <;> (try split) <;> (try split) <;> (try split) <;> simp

theorem head_length (m n : Nat) :
    (head m n).length = if n < 24 then 1 else if n < 2 ^ 8 then 2 else if n < 2 ^ 16 then 3 else if n < 2 ^ 32 then 5 else 9 := by
  unfold head
  split
  · rfl
  split
  · simp [be_length]
  split
  · simp [be_length]
  split <;> simp [be_length]

/-! ## What strings decode to -/

/-- The string decodes to the item, whatever follows, within `d` levels. -/
def Dec (d : Nat) (v : Item) (bs : List Byte) : Prop :=
  ∀ fuel r, d ≤ fuel → decode fuel (bs ++ r) = some (v, r)

theorem split_app (b r : List Byte) : split b.length (b ++ r) = some (b, r) := by
  unfold split
  rw [if_neg (by simp)]
  simp

theorem Dec.uint {n : Nat} (hn : n < 2 ^ 64) : Dec 1 (.uint n) (head 0 n) := by
  intro fuel r hf
  obtain ⟨f, rfl⟩ : ∃ f, fuel = f + 1 := ⟨fuel - 1, by omega⟩
  simp [decode, getHead_head r (by decide : 0 < 8) hn]

theorem Dec.bytes {b : List Byte} (hn : b.length < 2 ^ 64) : Dec 1 (.bytes b) (head 2 b.length ++ b) := by
  intro fuel r hf
  obtain ⟨f, rfl⟩ : ∃ f, fuel = f + 1 := ⟨fuel - 1, by omega⟩
  rw [List.append_assoc]
  simp [decode, getHead_head _ (by decide : 2 < 8) hn, split_app]

theorem Dec.text {b : List Byte} (hn : b.length < 2 ^ 64) : Dec 1 (.text b) (head 3 b.length ++ b) := by
  intro fuel r hf
  obtain ⟨f, rfl⟩ : ∃ f, fuel = f + 1 := ⟨fuel - 1, by omega⟩
  rw [List.append_assoc]
  simp [decode, getHead_head _ (by decide : 3 < 8) hn, split_app]

theorem Dec.tag {d n : Nat} {v : Item} {b : List Byte} (hn : n < 2 ^ 64) (h : Dec d v b) : Dec (d + 1) (.tag n v) (head 6 n ++ b) := by
  intro fuel r hf
  obtain ⟨f, rfl⟩ : ∃ f, fuel = f + 1 := ⟨fuel - 1, by omega⟩
  rw [List.append_assoc]
  simp [decode, getHead_head _ (by decide : 6 < 8) hn, h f r (by omega)]

/-- Items in a row. -/
def DecL (d : Nat) (l : List Item) (bs : List Byte) : Prop :=
  ∀ fuel r, d ≤ fuel → items (decode fuel) l.length (bs ++ r) = some (l, r)

theorem DecL.nil (d : Nat) : DecL d [] [] := by
  intro fuel r _
  rfl

theorem DecL.cons {d d1 : Nat} {v : Item} {l : List Item} {b bs : List Byte} (hd : d1 ≤ d) (h : Dec d1 v b) (hl : DecL d l bs) :
    DecL d (v :: l) (b ++ bs) := by
  intro fuel r hf
  rw [List.length_cons, items, List.append_assoc, h fuel _ (by omega)]
  simp [hl fuel r hf]

theorem Dec.array {d n : Nat} {l : List Item} {bs : List Byte} (hl : l.length = n) (hn : n < 2 ^ 64) (h : DecL d l bs) :
    Dec (d + 1) (.array l) (head 4 n ++ bs) := by
  intro fuel r hf
  obtain ⟨f, rfl⟩ : ∃ f, fuel = f + 1 := ⟨fuel - 1, by omega⟩
  subst hl
  rw [List.append_assoc]
  simp [decode, getHead_head _ (by decide : 4 < 8) hn, h f r (by omega)]

theorem Dec.map {d n : Nat} {l : List Item} {bs : List Byte} (hl : l.length = 2 * n) (hn : n < 2 ^ 64) (h : DecL d l bs) :
    Dec (d + 1) (.map l) (head 5 n ++ bs) := by
  intro fuel r hf
  obtain ⟨f, rfl⟩ : ∃ f, fuel = f + 1 := ⟨fuel - 1, by omega⟩
  rw [List.append_assoc]
  simp [decode, getHead_head _ (by decide : 5 < 8) hn, ← hl, h f r (by omega)]

theorem Dec.parse {d : Nat} {v : Item} {bs : List Byte} (h : Dec d v bs) (hd : d ≤ bs.length + 1) : parse bs = some v := by
  unfold Cbor.parse
  have := h (bs.length + 1) [] hd
  rw [List.append_nil] at this
  rw [this]

/-! ## What the encoder writes -/

def addCount (k : Nat) : List Nest → List Nest
  | [] => []
  | n :: l => { n with count := n.count + k } :: l

/-- The operations add `k` items and the bytes, if there is room; else the encoder stops. -/
def Emits (f : Enc → Enc) (k : Nat) (bs : List Byte) : Prop :=
  (∀ e x, e.err = some x → (f e).err = some x) ∧
  ∀ e, e.err = none → e.out.length ≤ e.cap →
    (e.out.length + bs.length ≤ e.cap → f e = { e with out := e.out ++ bs, nest := addCount k e.nest }) ∧
    (e.cap < e.out.length + bs.length → (f e).err = some .tooSmall)

theorem addCount_zero (l : List Nest) : addCount 0 l = l := by cases l <;> rfl

theorem addCount_add (a b : Nat) (l : List Nest) : addCount b (addCount a l) = addCount (a + b) l := by
  cases l with
  | nil => rfl
  | cons n l => simp [addCount, Nat.add_assoc]

theorem emits_app (bs : List Byte) : Emits (app bs) 0 bs := by
  constructor
  · intro e x h; simp [app, put, h]
  · intro e h _
    constructor
    · intro hr
      simp only [app, put, h, Option.isSome_none, Bool.false_eq_true, if_false]
      rw [if_neg (by omega), addCount_zero]
      simp
    · intro hr
      simp only [app, put, h, Option.isSome_none, Bool.false_eq_true, if_false]
      rw [if_pos (by omega)]

theorem emits_inc : Emits inc 1 [] := by
  constructor
  · intro e x h; simp [inc, h]
  · intro e h hc
    constructor
    · intro _
      simp only [inc, h, Option.isSome_none, Bool.false_eq_true, if_false, List.append_nil]
      cases e.nest <;> rfl
    · intro hr; simp at hr; omega

theorem emits_id : Emits (fun e => e) 0 [] := by
  constructor
  · intro e x h; exact h
  · intro e h hc
    constructor
    · intro _; simp [addCount_zero]
    · intro hr; simp at hr; omega

theorem Emits.seq {f g : Enc → Enc} {a b : Nat} {x y : List Byte} (hf : Emits f a x) (hg : Emits g b y) :
    Emits (fun e => g (f e)) (a + b) (x ++ y) := by
  constructor
  · intro e z h; exact hg.1 _ _ (hf.1 _ _ h)
  · intro e h hc
    by_cases hx : e.out.length + x.length ≤ e.cap
    · have h1 := (hf.2 e h hc).1 hx
      have h2 := hg.2 { e with out := e.out ++ x, nest := addCount a e.nest } h (by simp; omega)
      constructor
      · intro hr
        show g (f e) = _
        rw [h1, h2.1 (by simp at hr ⊢; omega)]
        simp [addCount_add]
      · intro hr
        show (g (f e)).err = _
        rw [h1]
        exact h2.2 (by simp at hr ⊢; omega)
    · constructor
      · intro hr; simp at hr; omega
      · intro _
        exact hg.1 _ _ ((hf.2 e h hc).2 (by omega))

theorem emits_uint (n : Nat) : Emits (addUint n) 1 (head 0 n) := by
  have := (emits_app (head 0 n)).seq emits_inc
  rwa [List.append_nil] at this

theorem emits_bytes (b : List Byte) : Emits (addBytes b) 1 (head 2 b.length ++ b) := by
  have := ((emits_app (head 2 b.length)).seq (emits_app b)).seq emits_inc
  rwa [List.append_nil] at this

theorem emits_text (b : List Byte) : Emits (addText b) 1 (head 3 b.length ++ b) := by
  have := ((emits_app (head 3 b.length)).seq (emits_app b)).seq emits_inc
  rwa [List.append_nil] at this

theorem emits_tag (n : Nat) : Emits (addTag n) 0 (head 6 n) := emits_app _

/-- The number in the head of a map, array or wrapped string. -/
def arg (m k : Nat) (bs : List Byte) : Nat := if m = 2 then bs.length else if m = 5 then k / 2 else k

theorem Emits.wrap {f : Enc → Enc} {k : Nat} {bs : List Byte} (m : Nat) (hf : Emits f k bs) :
    Emits (fun e => closeItem m (f (openItem m e))) 1 (head m (arg m k bs) ++ bs) := by
  have hclose : ∀ e x, e.err = some x → (closeItem m e).err = some x := by
    intro e x h; simp [closeItem, h]
  constructor
  · intro e x h
    refine hclose _ _ (hf.1 _ _ ?_)
    simp [openItem, h]
  · intro e h hc
    have ho : openItem m e = { e with nest := ⟨m, e.out.length, 0⟩ :: incN e.nest } := by
      simp [openItem, inc, h]
    have h2 := hf.2 { e with nest := ⟨m, e.out.length, 0⟩ :: incN e.nest } h hc
    by_cases hx : e.out.length + bs.length ≤ e.cap
    · have h3 := h2.1 hx
      have hgo : closeItem m (f (openItem m e)) =
          put e.out.length (head m (arg m k bs)) { e with out := e.out ++ bs, nest := incN e.nest } := by
        rw [ho, h3]
        simp [closeItem, h, addCount, arg]
      show (_ → closeItem m (f (openItem m e)) = _) ∧ (_ → (closeItem m (f (openItem m e))).err = _)
      rw [hgo]
      simp only [put, h, Option.isSome_none, Bool.false_eq_true, if_false, List.length_append]
      constructor
      · intro hr
        rw [if_neg (by omega)]
        simp only [List.take_left, List.drop_left, List.append_assoc]
        congr 1
      · intro hr
        rw [if_pos (by omega)]
    · constructor
      · intro hr; simp at hr; omega
      · intro _
        refine hclose _ _ ?_
        rw [ho]
        exact h2.2 (by simp only; omega)

theorem Emits.wrapped {f : Enc → Enc} {k : Nat} {bs : List Byte} (m : Nat) (hf : Emits f k bs) {e : Enc} (h : e.err = none)
    (hx : e.out.length + bs.length ≤ e.cap) : Attest.wrapped (f (openItem m e)) = bs := by
  have ho : openItem m e = { e with nest := ⟨m, e.out.length, 0⟩ :: incN e.nest } := by
    simp [openItem, inc, h]
  have h2 := hf.2 { e with nest := ⟨m, e.out.length, 0⟩ :: incN e.nest } h (by simp only; omega)
  rw [ho, h2.1 hx]
  simp [Attest.wrapped, addCount]

/-- From an empty buffer. -/
theorem Emits.finish {f : Enc → Enc} {k : Nat} {bs : List Byte} (hf : Emits f k bs) (cap : Nat) :
    Attest.finish (f (Enc.init cap)) = if bs.length ≤ cap then .ok bs else .error .tooSmall := by
  have h := hf.2 (Enc.init cap) rfl (Nat.zero_le _)
  by_cases hc : bs.length ≤ cap
  · rw [if_pos hc, h.1 (by simpa [Enc.init] using hc)]
    simp [Attest.finish, Enc.init, addCount]
  · rw [if_neg hc]
    unfold Attest.finish
    rw [h.2 (by simp only [Enc.init, List.length_nil]; omega)]

end Verif.Attest
