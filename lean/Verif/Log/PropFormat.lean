import Verif.Log.PropLog

/-!
# C56: formatted printing

`snprintf` as the RMM uses it: the output is the concatenation of what the
items of the format denote, cut to the room in the buffer, always terminated,
and nothing else is written.
-/

namespace Verif.Log

namespace Spec

/-- the items of a format that the theorem covers -/
inductive Item where
  /-- a character that stands for itself -/
  | lit (c : Char)
  /-- `%s` -/
  | s (t : List Char)
  /-- `%lx`, `%lu` -/
  | lx (v : BitVec 64)
  | lu (v : BitVec 64)
  /-- `%x`, `%u`, `%d` of an `int` -/
  | x (v : BitVec 32)
  | u (v : BitVec 32)
  | d (v : BitVec 32)
  /-- `%08x` -/
  | x08 (v : BitVec 32)
  /-- `%<w>s` or `%-<w>s`, with `.<p>` before the `s` if a precision is given -/
  | field (left : Bool) (w : Nat) (p : Option Nat) (t : List Char)
  /-- `%.<p>s` -/
  | cut (p : Nat) (t : List Char)
  /-- `%%` -/
  | percent

/-- how the item is written in the format -/
def Item.format : Item → List Char
  | .lit c => [c]
  | .s _ => ['%', 's']
  | .lx _ => ['%', 'l', 'x']
  | .lu _ => ['%', 'l', 'u']
  | .x _ => ['%', 'x']
  | .u _ => ['%', 'u']
  | .d _ => ['%', 'd']
  | .x08 _ => ['%', '0', '8', 'x']
  | .field left w p _ =>
    '%' :: ((if left then ['-'] else []) ++ (number 10 w ++ ((p.elim [] fun p => '.' :: number 10 p) ++ ['s'])))
  | .cut p _ => '%' :: '.' :: (number 10 p ++ ['s'])
  | .percent => ['%', '%']

/-- the argument that goes with it -/
def Item.args : Item → List Arg
  | .lit _ | .percent => []
  | .s t | .field _ _ _ t | .cut _ t => [.text t]
  | .lx v | .lu v => [.word v]
  | .x v | .u v | .x08 v => [.word (v.setWidth 64)]
  | .d v => [.word (v.signExtend 64)]

/-- a signed number in decimal -/
def decimal (n : Int) : List Char := if n < 0 then '-' :: number 10 n.natAbs else number 10 n.natAbs

/-- what it denotes -/
def Item.text : Item → List Char
  | .lit c => [c]
  | .s t => t
  | .lx v => number 16 v.toNat
  | .lu v => number 10 v.toNat
  | .x v => number 16 v.toNat
  | .u v => number 10 v.toNat
  | .d v => decimal v.toInt
  | .x08 v => padTo 8 '0' (number 16 v.toNat)
  | .field left w p t =>
    let t := p.elim t t.take
    if left then t ++ List.replicate (w - t.length) ' ' else padTo w ' ' t
  | .cut p t => t.take p
  | .percent => ['%']

/-- `%` does not stand for itself, and C leaves the negation of the smallest
`int` undefined; widths and precisions are of type `unsigned int` -/
def Item.Good : Item → Prop
  | .lit c => c ≠ '%'
  | .d v => v ≠ 0x80000000#32
  | .field _ w p _ => 0 < w ∧ w < 2 ^ 32 ∧ p.getD 0 < 2 ^ 32
  | .cut p _ => p < 2 ^ 32
  | _ => True

end Spec

theorem conv_unsigned (f : Flags) (c : Char) (hc : c = 'u' ∨ c = 'x') (r : List Char) (v : BitVec 64) (va : List Arg)
    (hf : f.left = false ∧ f.hash = false ∧ f.precision = false ∧ f.upper = false ∧ f.zeropad = false) :
    convSpec f 0 0 (c :: r) (.word v :: va) =
      .ok (Spec.number (if c = 'u' then 10 else 16) (v.setWidth (argBits f)).toNat, r, va) := by
  obtain ⟨f1, f2, f3, f4, f5⟩ := hf
  have h5 : convSpec f 0 0 (c :: r) (.word v :: va) =
      (convInt c f 0 0 v >>= fun out => .ok (out, r, va)) := by
    rcases hc with rfl | rfl <;> rfl
  rw [h5, convInt_unsigned (by tauto) _ ⟨f1, f2, f3, f4⟩ 0 (by omega), Res.ok_bind, padTo_zero]
  rcases hc with rfl | rfl <;> rfl

theorem conv_lu (r : List Char) (v : BitVec 64) (va : List Arg) :
    conv ('l' :: 'u' :: r) (.word v :: va) = .ok (Spec.number 10 v.toNat, r, va) := by
  have h4 : conv ('l' :: 'u' :: r) (.word v :: va) = convSpec { long := true } 0 0 ('u' :: r) (.word v :: va) := rfl
  rw [h4, conv_unsigned _ _ (Or.inl rfl) _ _ _ ⟨rfl, rfl, rfl, rfl, rfl⟩]
  have h6 : argBits { long := true } = 64 := rfl
  have h7 : (v.setWidth (argBits { long := true })).toNat = v.toNat := by
    rw [BitVec.toNat_setWidth, h6]; exact Nat.mod_eq_of_lt v.isLt
  rw [h7]; rfl

theorem conv_int32 (c : Char) (hc : c = 'u' ∨ c = 'x') (r : List Char) (v : BitVec 32) (va : List Arg) :
    conv (c :: r) (.word (v.setWidth 64) :: va) = .ok (Spec.number (if c = 'u' then 10 else 16) v.toNat, r, va) := by
  have h4 : conv (c :: r) (.word (v.setWidth 64) :: va) = convSpec {} 0 0 (c :: r) (.word (v.setWidth 64) :: va) := by
    rcases hc with rfl | rfl <;> rfl
  rw [h4, conv_unsigned _ _ hc _ _ _ ⟨rfl, rfl, rfl, rfl, rfl⟩]
  have h6 : argBits {} = 32 := rfl
  have h7 : ((v.setWidth 64).setWidth (argBits {})).toNat = v.toNat := by
    rw [BitVec.toNat_setWidth, BitVec.toNat_setWidth, h6]
    have := v.isLt
    omega
  rw [h7]

theorem ntoa_decimal (n : Nat) (hn : n < 2 ^ 64) (neg : Bool) :
    ntoa n neg 10 0 0 {} = (if neg then ['-'] else []) ++ Spec.number 10 n := by
  have hd := digits_eq (base := 10) (by omega) (by omega) 32 n (by omega) (base_room (by omega) hn)
  have hz0 : zeros (digits false 10 32 n) 0 = digits false 10 32 n := by
    rw [zeros_eq (by omega)]; simp
  have hlen : (digits false 10 32 n).length ≤ 20 := by
    rw [← List.length_reverse, hd]
    exact (Nat.length_toDigits_le_iff (by omega) (by omega)).mpr (by omega)
  have hfix : (if n = 0 then ({ ({} : Flags) with hash := false }) else ({} : Flags)) = {} := by split <;> rfl
  simp only [ntoa, hfix, NTOA_BUFFER_SIZE, ntoaFormat, hashed, signed, outRev, push, Bool.not_false, Bool.true_or,
    if_true, Bool.and_false, Bool.false_and, Bool.false_eq_true, if_false, hz0, bne_self_eq_false, List.append_nil,
    Nat.zero_sub, List.replicate_zero, List.nil_append, Bool.and_self, ite_self]
  cases neg
  · simp only [Bool.false_eq_true, if_false, List.nil_append]; exact hd
  · simp only [if_true]
    rw [if_pos (by omega), List.reverse_append, hd]
    rfl

theorem conv_d (r : List Char) (v : BitVec 32) (va : List Arg) (hv : v ≠ 0x80000000#32) :
    conv ('d' :: r) (.word (v.signExtend 64) :: va) = .ok (Spec.decimal v.toInt, r, va) := by
  have h4 : conv ('d' :: r) (.word (v.signExtend 64) :: va) =
      (convInt 'd' {} 0 0 (v.signExtend 64) >>= fun out => .ok (out, r, va)) := rfl
  have hw : (v.signExtend 64).setWidth 32 = v := by
    apply BitVec.eq_of_getLsbD_eq
    intro i hi
    simp only [BitVec.getLsbD_setWidth, BitVec.getLsbD_signExtend]
    simp [hi]
    omega
  have h5 : convInt 'd' {} 0 0 (v.signExtend 64) =
      if 32 ≤ 32 ∧ ((v.signExtend 64).setWidth 32).toInt = - 2 ^ (32 - 1) then .undef
      else .ok (ntoa ((v.signExtend 64).setWidth 32).toInt.natAbs (((v.signExtend 64).setWidth 32).toInt < 0) 10 0 0 {}) := rfl
  have hmin : ¬ (v.toInt = - 2 ^ (32 - 1)) := by
    intro h
    apply hv
    apply BitVec.eq_of_toInt_eq
    rw [h]; rfl
  rw [h4, h5, hw, if_neg (fun h => hmin h.2), Res.ok_bind, ntoa_decimal _ (by
    have h1 := BitVec.toInt_lt (x := v)
    have h2 := BitVec.le_toInt (x := v)
    omega)]
  congr 2
  unfold Spec.decimal
  by_cases hn : v.toInt < 0
  · simp [hn]
  · simp [hn]

theorem digitChar_digit {d : Nat} (h : d < 10) : isDigit d.digitChar = true ∧ d.digitChar.toNat - '0'.toNat = d := by
  have : ∀ k : Fin 10, isDigit (k : Nat).digitChar = true ∧ (k : Nat).digitChar.toNat - '0'.toNat = k := by decide
  exact this ⟨d, h⟩

theorem digitChar_flag {d : Nat} (h : d < 10) (h0 : d ≠ 0) (f : Flags) (r : List Char) :
    parseFlags (d.digitChar :: r) f = (f, d.digitChar :: r) := by
  have : ∀ k : Fin 10, (k : Nat) ≠ 0 → (k : Nat).digitChar ≠ '0' ∧ (k : Nat).digitChar ≠ '-' ∧
      (k : Nat).digitChar ≠ '+' ∧ (k : Nat).digitChar ≠ ' ' ∧ (k : Nat).digitChar ≠ '#' := by decide
  obtain ⟨h1, h2, h3, h4, h5⟩ := this ⟨d, h⟩ h0
  unfold parseFlags
  split <;> simp_all

/-- a number is read back -/
theorem atoi_number (w : Nat) : ∀ (rest : List Char), w < 2 ^ 32 → atoi (Spec.number 10 w ++ rest) 0 = atoi rest w := by
  induction w using Nat.strongRecOn with
  | ind w ih =>
    intro rest hw
    unfold Spec.number at *
    rw [Nat.toDigits_eq_if (by omega)]
    by_cases hlt : w < 10
    · rw [if_pos hlt]
      obtain ⟨h1, h2⟩ := digitChar_digit hlt
      simp only [List.cons_append, List.nil_append, atoi, h1, if_true, h2]
      rw [Nat.zero_mul, Nat.zero_add, Nat.mod_eq_of_lt hw]
    · rw [if_neg hlt, List.append_assoc, ih (w / 10) (by omega) _ (by omega)]
      obtain ⟨h1, h2⟩ := digitChar_digit (d := w % 10) (by omega)
      simp only [List.cons_append, List.nil_append, atoi, h1, if_true, h2]
      congr 1
      omega

/-- a number begins with a digit, not a zero if the number is not -/
theorem number_head (w : Nat) : ∃ d r, d < 10 ∧ (0 < w → d ≠ 0) ∧ Spec.number 10 w = d.digitChar :: r := by
  induction w using Nat.strongRecOn with
  | ind w ih =>
    unfold Spec.number at *
    rw [Nat.toDigits_eq_if (by omega)]
    by_cases hlt : w < 10
    · rw [if_pos hlt]
      exact ⟨w, [], hlt, by omega, rfl⟩
    · rw [if_neg hlt]
      obtain ⟨d, r, h1, h2, h3⟩ := ih (w / 10) (by omega)
      exact ⟨d, r ++ [(w % 10).digitChar], h1, fun _ => h2 (by omega), by rw [h3]; rfl⟩

/-- the precision of a string conversion -/
theorem parsePrec_number (f : Flags) (p : Nat) (hp : p < 2 ^ 32) (r : List Char) (va : List Arg) :
    parsePrec f ('.' :: (Spec.number 10 p ++ 's' :: r)) va = .ok ({ f with precision := true }, p, 's' :: r, va) := by
  obtain ⟨d, q, h1, _, h3⟩ := number_head p
  have h4 := atoi_number p ('s' :: r) hp
  have h5 : atoi ('s' :: r) p = (p, 's' :: r) := rfl
  rw [h3] at h4 ⊢
  unfold parsePrec
  simp only [List.cons_append] at h4 ⊢
  rw [if_pos (digitChar_digit h1).1, h4, h5]

theorem conv_cut (p : Nat) (hp : p < 2 ^ 32) (t r : List Char) (va : List Arg) :
    conv ('.' :: (Spec.number 10 p ++ 's' :: r)) (.text t :: va) = .ok (t.take p, r, va) := by
  have h1 : ∀ q, parseFlags ('.' :: q) {} = ({}, '.' :: q) := fun _ => rfl
  have h2 : ∀ q v, parseWidth {} ('.' :: q) v = .ok ({}, 0, '.' :: q, v) := fun _ _ => rfl
  simp only [conv, h1, h2, parsePrec_number _ p hp, Res.ok_bind]
  have h4 : parseLen { precision := true } ('s' :: r) = ({ precision := true }, 's' :: r) := rfl
  have h5 : convSpec { precision := true } 0 p ('s' :: r) (.text t :: va) =
    .ok (convText { precision := true } 0 p t, r, va) := rfl
  rw [h4, h5]
  simp [convText]

theorem conv_field (left : Bool) (w : Nat) (hw : 0 < w) (hw' : w < 2 ^ 32) (p : Option Nat) (hp : p.getD 0 < 2 ^ 32)
    (t r : List Char) (va : List Arg) :
    conv ((if left then ['-'] else []) ++ (Spec.number 10 w ++ ((p.elim [] fun p => '.' :: Spec.number 10 p) ++ 's' :: r)))
      (.text t :: va) = .ok ((Spec.Item.field left w p t).text, r, va) := by
  obtain ⟨d, q, h1, h2, h3⟩ := number_head w
  have hfl : ∀ z, parseFlags ((if left then ['-'] else []) ++ (Spec.number 10 w ++ z)) {} =
      ({ left := left }, Spec.number 10 w ++ z) := by
    intro z
    rw [h3]
    cases left
    · exact digitChar_flag h1 (h2 hw) _ _
    · exact digitChar_flag h1 (h2 hw) _ _
  have hwd : ∀ z c, isDigit c = false → parseWidth { left := left } (Spec.number 10 w ++ c :: z) (.text t :: va) =
      .ok ({ left := left }, w, c :: z, .text t :: va) := by
    intro z c hc
    have h4 := atoi_number w (c :: z) hw'
    have h5 : atoi (c :: z) w = (w, c :: z) := by simp [atoi, hc]
    rw [h3] at h4 ⊢
    unfold parseWidth
    simp only [List.cons_append] at h4 ⊢
    rw [if_pos (digitChar_digit h1).1, h4, h5]
  cases p with
  | none =>
    simp only [Option.elim, List.nil_append, conv, hfl, hwd r 's' (by decide), Res.ok_bind]
    have h4 : parsePrec { left := left } ('s' :: r) (.text t :: va) = .ok ({ left := left }, 0, 's' :: r, .text t :: va) := rfl
    have h5 : parseLen { left := left } ('s' :: r) = ({ left := left }, 's' :: r) := rfl
    have h6 : convSpec { left := left } w 0 ('s' :: r) (.text t :: va) = .ok (convText { left := left } w 0 t, r, va) := rfl
    simp only [h4, h5, h6, Res.ok_bind]
    cases left <;> simp [convText, Spec.Item.text, Spec.padTo]
  | some p =>
    have hwd' := hwd (Spec.number 10 p ++ 's' :: r) '.' (by decide)
    simp only [Option.elim, List.cons_append, conv, hfl, hwd', parsePrec_number _ p hp, Res.ok_bind]
    have h5 : parseLen { left := left, precision := true } ('s' :: r) = ({ left := left, precision := true }, 's' :: r) := rfl
    have h6 : convSpec { left := left, precision := true } w p ('s' :: r) (.text t :: va) =
      .ok (convText { left := left, precision := true } w p t, r, va) := rfl
    rw [h5, h6]
    cases left <;> simp [convText, Spec.Item.text, Spec.padTo]

/-- an item at the head of the format -/
theorem render_item (n : Nat) (i : Spec.Item) (hi : i.Good) (r : List Char) (va : List Arg) :
    render (n + 1) (i.format ++ r) (i.args ++ va) = (render n r va >>= fun out => .ok (i.text ++ out)) := by
  cases i with
  | lit c => exact render_lit n c hi r va
  | s t => exact render_conv n _ _ _ _ _ (conv_text _ _ _)
  | lx v => exact render_conv n _ _ _ _ _ (conv_lx _ _ _)
  | lu v => exact render_conv n _ _ _ _ _ (conv_lu _ _ _)
  | x v => exact render_conv n _ _ _ _ _ (conv_int32 'x' (Or.inr rfl) _ _ _)
  | u v => exact render_conv n _ _ _ _ _ (conv_int32 'u' (Or.inl rfl) _ _ _)
  | d v => exact render_conv n _ _ _ _ _ (conv_d _ _ _ hi)
  | x08 v => exact render_conv n _ _ _ _ _ (conv_08x _ _ _)
  | field left w p t =>
    have hc := conv_field left w hi.1 hi.2.1 p hi.2.2 t r va
    have hf : (Spec.Item.field left w p t).format ++ r = '%' :: ((if left then ['-'] else []) ++
        (Spec.number 10 w ++ ((p.elim [] fun p => '.' :: Spec.number 10 p) ++ 's' :: r))) := by
      simp [Spec.Item.format]
    rw [hf]
    exact render_conv n _ _ _ _ _ hc
  | cut p t =>
    have hf : (Spec.Item.cut p t).format ++ r = '%' :: '.' :: (Spec.number 10 p ++ 's' :: r) := by
      simp [Spec.Item.format]
    rw [hf]
    exact render_conv n _ _ _ _ _ (conv_cut p hi t r va)
  | percent => exact render_conv n ('%' :: r) va ['%'] r va rfl

theorem render_items : ∀ (l : List Spec.Item) (n : Nat), (∀ i ∈ l, i.Good) → l.length ≤ n →
    render n (l.flatMap Spec.Item.format) (l.flatMap Spec.Item.args) = .ok (l.flatMap Spec.Item.text) := by
  intro l
  induction l with
  | nil => intro n _ _; exact render_nil n _
  | cons i l ih =>
    intro n hg hn
    obtain ⟨m, rfl⟩ : ∃ m, n = m + 1 := ⟨n - 1, by simp only [List.length_cons] at hn; omega⟩
    rw [List.flatMap_cons, List.flatMap_cons, render_item m i (hg i (by simp)),
      ih m (fun j hj => hg j (by simp [hj])) (by simp only [List.length_cons] at hn; omega)]
    rfl

theorem format_length (l : List Spec.Item) : l.length ≤ (l.flatMap Spec.Item.format).length := by
  induction l with
  | nil => simp
  | cons i l ih =>
    rw [List.flatMap_cons, List.length_append, List.length_cons]
    have : 1 ≤ i.format.length := by cases i <;> simp [Spec.Item.format]
    omega

/-- **C56.**  For every format made of these items, every buffer inside the
array and every size, zero included: what is written is the text denoted, cut
to the room there is, and a terminating zero; nothing outside of the buffer
changes, nor anything in it after the zero; the length of the whole text is
returned. -/
theorem C56_snprintf (l : List Spec.Item) (hg : ∀ i ∈ l, i.Good) (format : String)
    (hf : format.toList = l.flatMap Spec.Item.format) (b : List Char) (off count : Nat)
    (hb : off + count ≤ b.length) (hc : count < 2 ^ 64) (hlen : (l.flatMap Spec.Item.text).length < 2 ^ 31) :
    ∃ b', snprintf b off count format (l.flatMap Spec.Item.args) = .ok (b', (l.flatMap Spec.Item.text).length) ∧
      b'.length = b.length ∧ Spec.Printed b b' off count (l.flatMap Spec.Item.text) := by
  have hr : render format.toList.length format.toList (l.flatMap Spec.Item.args) = .ok (l.flatMap Spec.Item.text) := by
    rw [hf]
    exact render_items l _ hg (format_length l)
  obtain ⟨b', h1, h2, h3⟩ := snprintf_ok hr hb hc
  refine ⟨b', ?_, h2, h3⟩
  rw [h1]
  congr 2
  rw [BitVec.toInt_eq_toNat_cond, BitVec.toNat_ofNat, Nat.mod_eq_of_lt (by omega), if_pos (by omega)]

/-- **C56, any format.**  Whatever the format and the arguments are, flags,
widths and precisions included: `snprintf` does not write outside of the
buffer it is given, and leaves a terminated string in it if there is room for
one. -/
theorem C56_any_format (b : List Char) (off count : Nat) (format : String) (va : List Arg)
    (hb : off + count ≤ b.length) (hc : count < 2 ^ 64) (b' : List Char) (n : Int)
    (h : snprintf b off count format va = .ok (b', n)) :
    b'.length = b.length ∧ (∀ i, i < off ∨ off + count ≤ i → b'[i]? = b[i]?) ∧
      (0 < count → ∃ k, k < count ∧ b'[off + k]? = some (Char.ofNat 0)) := by
  have hr : ∃ text, render format.toList.length format.toList va = .ok text := by
    unfold snprintf at h
    cases hx : render format.toList.length format.toList va with
    | ok t => exact ⟨t, rfl⟩
    | assertion => rw [hx] at h; cases h
    | outside => rw [hx] at h; cases h
    | undef => rw [hx] at h; cases h
  obtain ⟨text, hr⟩ := hr
  obtain ⟨b1, h1, h2, h3⟩ := snprintf_ok hr hb hc
  rw [h1] at h
  obtain ⟨rfl, _⟩ := Prod.mk.inj (Res.ok.inj h)
  refine ⟨h2, fun i hi => ?_, fun hp => ⟨min text.length (count - 1), by omega, ?_⟩⟩
  · rw [h3 i, if_neg (by omega), if_neg (by omega)]
  · rw [h3, if_neg (by omega), if_pos ⟨hp, rfl⟩]

/-- a mixed format, cut short by the buffer: `"x=%d, %s"` into five characters
of eight -/
example : snprintf (List.replicate 8 'z') 2 5 "x=%d, %s" [.word ((-17#32).signExtend 64), .text "abc".toList] =
    .ok (['z', 'z', 'x', '=', '-', '1', Char.ofNat 0, 'z'], 10) := by
  decide +kernel

/-- the format is one the theorem covers -/
example : ("x=%d, %s".toList = [Spec.Item.lit 'x', .lit '=', .d (-17#32), .lit ',', .lit ' ', .s "abc".toList].flatMap
      Spec.Item.format) ∧
    ∀ i ∈ [Spec.Item.lit 'x', .lit '=', .d (-17#32), .lit ',', .lit ' ', .s "abc".toList], i.Good := by
  refine ⟨by decide, fun i hi => ?_⟩
  simp only [List.mem_cons, List.not_mem_nil, or_false] at hi
  rcases hi with rfl | rfl | rfl | rfl | rfl | rfl <;> simp [Spec.Item.Good]

/-- so is one with a width and a precision -/
example : ("%-12s|%.3s".toList = [Spec.Item.field true 12 none "abc".toList, .lit '|', .cut 3 "abcdef".toList].flatMap
      Spec.Item.format) ∧
    [Spec.Item.field true 12 none "abc".toList, .lit '|', .cut 3 "abcdef".toList].flatMap Spec.Item.text =
      "abc         |abc".toList := by
  decide +kernel

/-- A format that ends in `%` makes the code step over the end of the format;
no caller in the RMM has one. -/
theorem C56_dangling_percent (b : List Char) (va : List Arg) : snprintf b 0 b.length "%" va = .outside := rfl

end Verif.Log
