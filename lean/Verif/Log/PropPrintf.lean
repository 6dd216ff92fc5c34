import Verif.Log.Printf

/-!
# Formatted printing stays inside its buffer
-/

namespace Verif.Log

/-! ## Specification -/

namespace Spec

/-- `b'` is `b` with `text`, cut to the `count - 1` characters there is room
for, and a terminating zero at `off`; with `count = 0` nothing changes. -/
def Printed (b b' : List Char) (off count : Nat) (text : List Char) : Prop :=
  ∀ i, b'[i]? =
    if off ≤ i ∧ i < off + min text.length (count - 1) then text[i - off]?
    else if 0 < count ∧ i = off + min text.length (count - 1) then some (Char.ofNat 0)
    else b[i]?

/-- a number in base `base` without leading zeros -/
def number (base n : Nat) : List Char := Nat.toDigits base n

/-- `s` filled up to `w` characters with `c` on the left -/
def padTo (w : Nat) (c : Char) (s : List Char) : List Char := List.replicate (w - s.length) c ++ s

end Spec

/-! ## The buffer -/

theorem put_ok {b : Buf} {i : Nat} {c : Char} (h : i < b.length) : put b i c = .ok (b.set i c) := if_pos h

theorem outBuffer_ok {b : Buf} {off idx maxlen : Nat} {c : Char} (h : off + maxlen ≤ b.length) :
    outBuffer b off idx maxlen c = .ok (if idx < maxlen then b.set (off + idx) c else b) := by
  unfold outBuffer
  by_cases hi : idx < maxlen
  · rw [if_pos hi, if_pos hi, put_ok (by omega)]
  · rw [if_neg hi, if_neg hi]

theorem outAll_ok (off maxlen : Nat) : ∀ (text : List Char) (b : Buf) (idx : Nat), off + maxlen ≤ b.length →
    ∃ b', outAll off maxlen b idx text = .ok (b', idx + text.length) ∧ b'.length = b.length ∧
      ∀ i, b'[i]? = if off + idx ≤ i ∧ i < off + min (idx + text.length) maxlen then text[i - off - idx]? else b[i]? := by
  intro text
  induction text with
  | nil =>
    intro b idx _
    refine ⟨b, rfl, rfl, fun i => ?_⟩
    rw [if_neg]
    simp only [List.length_nil]
    omega
  | cons c r ih =>
    intro b idx h
    obtain ⟨b', h1, h2, h3⟩ := ih (if idx < maxlen then b.set (off + idx) c else b) (idx + 1)
      (by split <;> simp [h])
    refine ⟨b', ?_, ?_, fun i => ?_⟩
    · rw [outAll, outBuffer_ok h, Res.ok_bind, h1]
      simp only [List.length_cons]
      congr 2
      omega
    · rw [h2]; split <;> simp
    · rw [h3 i]
      simp only [List.length_cons]
      by_cases hi : off + idx = i
      · subst hi
        rw [if_neg (by omega)]
        by_cases hm : idx < maxlen
        · rw [if_pos hm, if_pos (by omega), List.getElem?_set, if_pos rfl, if_pos (by omega)]
          simp
        · rw [if_neg hm, if_neg (by omega)]
      · have e1 : (off + (idx + 1) ≤ i ∧ i < off + min (idx + 1 + r.length) maxlen) ↔
            (off + idx ≤ i ∧ i < off + min (idx + (r.length + 1)) maxlen) := by omega
        by_cases hc : off + idx ≤ i ∧ i < off + min (idx + (r.length + 1)) maxlen
        · rw [if_pos (e1.mpr hc), if_pos hc, show i - off - idx = (i - off - (idx + 1)) + 1 by omega]
          rfl
        · rw [if_neg (fun hx => hc (e1.mp hx)), if_neg hc]
          split
          · rw [List.getElem?_set, if_neg hi]
          · rfl

theorem snprintf_ok {b : Buf} {off count : Nat} {format : String} {va : List Arg} {text : List Char}
    (hr : render format.toList.length format.toList va = .ok text)
    (h : off + count ≤ b.length) (hc : count < 2 ^ 64) :
    ∃ b', snprintf b off count format va = .ok (b', (BitVec.ofNat 32 text.length).toInt) ∧
      b'.length = b.length ∧ Spec.Printed b b' off count text := by
  obtain ⟨b1, h1, h2, h3⟩ := outAll_ok off count text b 0 h
  simp only [Nat.zero_add] at h1
  refine ⟨if (if text.length < count then text.length else (count + (2 ^ 64 - 1)) % 2 ^ 64) < count then
      b1.set (off + (if text.length < count then text.length else (count + (2 ^ 64 - 1)) % 2 ^ 64)) (Char.ofNat 0)
      else b1, ?_, ?_, fun i => ?_⟩
  · simp only [snprintf, hr, Res.ok_bind, h1, outBuffer_ok (h2 ▸ h)]
  · rw [apply_ite List.length, List.length_set, ite_self, h2]
  · have e : (if text.length < count then text.length else (count + (2 ^ 64 - 1)) % 2 ^ 64) =
        if 0 < count then min text.length (count - 1) else 2 ^ 64 - 1 := by
      split <;> split <;> omega
    rw [e]
    by_cases hz : 0 < count
    · rw [if_pos hz, if_pos (by omega), List.getElem?_set, h3 i]
      by_cases hi : off + min text.length (count - 1) = i
      · rw [if_pos hi, if_pos (by omega), if_neg (by omega), if_pos ⟨hz, hi.symm⟩]
      · rw [if_neg hi]
        by_cases hx : off ≤ i ∧ i < off + min text.length (count - 1)
        · rw [if_pos (by omega), if_pos hx]; simp
        · rw [if_neg (by omega), if_neg hx, if_neg (fun hh => hi hh.2.symm)]
    · rw [if_neg hz, if_neg (by omega), h3 i, if_neg (by omega), if_neg (by omega), if_neg (by omega)]

/-! ## The conversions -/

theorem digit_eq {d : Nat} (h : d < 16) : digit false d = d.digitChar := by
  have : ∀ k : Fin 16, digit false k = (k : Nat).digitChar := by decide
  exact this ⟨d, h⟩

theorem digits_eq {base : Nat} (hb : 1 < base) (hb' : base ≤ 16) : ∀ (n v : Nat), 0 < n → v < base ^ n →
    (digits false base n v).reverse = Nat.toDigits base v := by
  intro n
  induction n with
  | zero => intro v h; omega
  | succ n ih =>
    intro v _ hv
    rw [digits, List.reverse_cons, Nat.toDigits_eq_if hb,
      digit_eq (by have := Nat.mod_lt v (show 0 < base by omega); omega)]
    by_cases hlt : v < base
    · rw [if_pos hlt, if_neg (by simp [Nat.div_eq_of_lt hlt]), Nat.mod_eq_of_lt hlt]; rfl
    · rw [if_neg hlt]
      have hq : v / base ≠ 0 := by
        have := Nat.div_pos (show base ≤ v by omega) (show 0 < base by omega); omega
      have hn : 0 < n := by
        rcases Nat.eq_zero_or_pos n with rfl | h
        · simp at hv; omega
        · exact h
      rw [if_pos hq, ih (v / base) hn]
      rw [Nat.div_lt_iff_lt_mul (by omega)]
      rwa [Nat.pow_succ] at hv

theorem base_room {base : Nat} (hb : 4 ≤ base) {v : Nat} (hv : v < 2 ^ 64) : v < base ^ 32 := by
  have : 4 ^ 32 ≤ base ^ 32 := Nat.pow_le_pow_left hb 32
  have : (4 : Nat) ^ 32 = 2 ^ 64 := by decide
  omega

theorem number_length {v n : Nat} (hn : 0 < n) (hv : v < 16 ^ n) : (Spec.number 16 v).length ≤ n :=
  (Nat.length_toDigits_le_iff (by omega) hn).mpr hv

theorem number_pos {b v : Nat} : 0 < (Spec.number b v).length := Nat.length_toDigits_pos

theorem zeros_eq {buf : List Char} {n : Nat} (h : n ≤ 32) :
    zeros buf n = buf ++ List.replicate (n - buf.length) '0' := by
  simp only [zeros, NTOA_BUFFER_SIZE, Nat.min_eq_left h]

theorem reverse_append_replicate {l : List Char} {n : Nat} {c : Char} :
    (l ++ List.replicate n c).reverse = List.replicate n c ++ l.reverse := by
  rw [List.reverse_append, List.reverse_replicate]

/-- the unsigned conversions with a width and possibly the zero flag -/
theorem convInt_unsigned {c : Char} (hc : c = 'u' ∨ c = 'x' ∨ c = 'o') (f : Flags)
    (hf : f.left = false ∧ f.hash = false ∧ f.precision = false ∧ f.upper = false) (w : Nat) (hw : w ≤ 32)
    (v : BitVec 64) :
    convInt c f w 0 v = .ok (Spec.padTo w (if f.zeropad then '0' else ' ')
      (Spec.number (if c = 'u' then 10 else if c = 'x' then 16 else 8) (v.setWidth (argBits f)).toNat)) := by
  obtain ⟨f1, f2, f3, f4⟩ := hf
  have hb : baseOf c = (if c = 'u' then 10 else if c = 'x' then 16 else 8) := by
    rcases hc with rfl | rfl | rfl <;> decide
  have hi : ¬ (c = 'i' ∨ c = 'd') := by rcases hc with rfl | rfl | rfl <;> decide
  have hX : c ≠ 'X' := by rcases hc with rfl | rfl | rfl <;> decide
  have hi' : c ≠ 'i' ∧ c ≠ 'd' := by rcases hc with rfl | rfl | rfl <;> decide
  rw [← hb]
  have hb4 : 4 ≤ baseOf c ∧ baseOf c ≤ 16 := by rcases hc with rfl | rfl | rfl <;> decide
  have hfl : intFlags c f = { f with plus := false, space := false } := by
    simp only [intFlags, hX, hi', if_true, if_false, f3, ne_eq, not_false_eq_true, and_self]
    split <;> simp_all
  have ha : argBits ({ f with plus := false, space := false }) = argBits f := rfl
  simp only [convInt, hfl, ha]
  rw [if_neg (fun h => hi h.1)]
  generalize hx : (v.setWidth (argBits f)).toNat = x
  have hx2 : (v.setWidth (argBits (intFlags c f))).toNat = x := by rw [hfl]; exact hx
  have hx64 : x < 2 ^ 64 := by
    have h1 := (v.setWidth (argBits f)).isLt
    have : argBits f ≤ 64 := by unfold argBits; split <;> (try split) <;> (try split) <;> omega
    have : 2 ^ argBits f ≤ 2 ^ 64 := Nat.pow_le_pow_right (by omega) this
    omega
  have hd := digits_eq (base := baseOf c) (by omega) hb4.2 32 x (by omega) (base_room hb4.1 hx64)
  have hlen : (digits false (baseOf c) 32 x).length = (Spec.number (baseOf c) x).length := by
    rw [Spec.number, ← hd, List.length_reverse]
  have hz0 : zeros (digits false (baseOf c) 32 x) 0 = digits false (baseOf c) 32 x := by
    rw [zeros_eq (by omega)]; simp
  congr 1
  simp only [hx2]
  unfold ntoa
  simp only [f2, f3, f4, ntoaFormat, f1, NTOA_BUFFER_SIZE, Bool.not_false, Bool.true_or, if_true, ite_self,
    Bool.true_and, Bool.or_false, Bool.and_false, hashed, signed, Bool.false_eq_true, if_false, outRev]
  have hfix : (if x = 0 then ({ f with plus := false, space := false, hash := false } : Flags)
      else { f with plus := false, space := false }) = { f with plus := false, space := false } := by
    split
    · cases f; simp_all
    · rfl
  simp only [hfix, f1, f2, f3, f4, hz0, Bool.not_false, Bool.true_and, Bool.true_or, if_true, Bool.false_eq_true,
    if_false, List.append_nil, Bool.or_self, Bool.and_false]
  cases f.zeropad
  · simp only [Bool.false_eq_true, if_false, Bool.not_false, if_true, hd, Spec.padTo, Spec.number, hlen]
  · simp only [if_true, Bool.not_true, Bool.false_eq_true, if_false, List.nil_append, zeros_eq hw,
      reverse_append_replicate, hd, Spec.padTo, Spec.number, hlen]

end Verif.Log
