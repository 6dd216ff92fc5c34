import Verif.Log.PropPrintf
import Verif.Log.Rsi

/-!
# C45: the log line of a realm call is built inside the buffer
-/

namespace Verif.Log

/-! ## Specification -/

namespace Spec

/-- the realm calls with their identifiers, how many arguments they take and
how many values they return after the status (smc-rsi.h:95-295) -/
def calls : List (Nat × String × Nat × Nat) :=
  [(0xC4000190, "SMC_RSI_VERSION", 1, 2), (0xC4000191, "SMC_RSI_FEATURES", 1, 1),
   (0xC4000192, "SMC_RSI_MEASUREMENT_READ", 1, 8), (0xC4000193, "SMC_RSI_MEASUREMENT_EXTEND", 10, 0),
   (0xC4000194, "SMC_RSI_ATTEST_TOKEN_INIT", 8, 1), (0xC4000195, "SMC_RSI_ATTEST_TOKEN_CONTINUE", 3, 1),
   (0xC4000196, "SMC_RSI_REALM_CONFIG", 1, 0), (0xC4000197, "SMC_RSI_IPA_STATE_SET", 4, 2),
   (0xC4000198, "SMC_RSI_IPA_STATE_GET", 2, 2), (0xC4000199, "SMC_RSI_HOST_CALL", 1, 0),
   (0xC40001A0, "SMC_RSI_MEM_GET_PERM_VALUE", 2, 1), (0xC40001A1, "SMC_RSI_MEM_SET_PERM_INDEX", 4, 3),
   (0xC40001A2, "SMC_RSI_MEM_SET_PERM_VALUE", 3, 0), (0xC40001A3, "SMC_RSI_PLANE_ENTER", 2, 0),
   (0xC40001A4, "SMC_RSI_RDEV_CONTINUE", 2, 0), (0xC40001A5, "SMC_RSI_RDEV_GET_INFO", 2, 0),
   (0xC40001A6, "SMC_RSI_RDEV_GET_INTERFACE_REPORT", 3, 1), (0xC40001A7, "SMC_RSI_RDEV_GET_MEASUREMENTS", 3, 0),
   (0xC40001A8, "SMC_RSI_RDEV_GET_STATE", 2, 1), (0xC40001A9, "SMC_RSI_RDEV_LOCK", 2, 0),
   (0xC40001AA, "SMC_RSI_RDEV_START", 2, 0), (0xC40001AB, "SMC_RSI_RDEV_STOP", 2, 0),
   (0xC40001AC, "SMC_RSI_RDEV_VALIDATE_MAPPING", 6, 2), (0xC40001AE, "SMC_RSI_PLANE_REG_READ", 2, 1),
   (0xC40001AF, "SMC_RSI_PLANE_REG_WRITE", 3, 0)]

/-- the identifiers of realm calls -/
def Rsi (id : Nat) : Prop := 0xC4000190 ≤ id ∧ id ≤ 0xC40001AF

/-- the identifiers of PSCI calls, 32-bit and 64-bit -/
def Psci (id : Nat) : Prop := (0x84000000 ≤ id ∧ id ≤ 0x84000014) ∨ (0xC4000000 ≤ id ∧ id ≤ 0xC4000014)

instance (id : Nat) : Decidable (Rsi id) := inferInstanceAs (Decidable (_ ∧ _))
instance (id : Nat) : Decidable (Psci id) := inferInstanceAs (Decidable (_ ∨ _))

/-- what the line calls the function -/
def title (id : Nat) : List Char :=
  if Rsi id then ((calls.lookup id).map Prod.fst |>.getD "SMC_RSI_<unsupported>").toList
  else if Psci id then "PSCI_".toList ++ padTo 8 '0' (number 16 id)
  else "SMC_".toList ++ padTo 8 '0' (number 16 id)

/-- how many arguments the line shows: those of the call, seven of others -/
def shownArgs (id : Nat) : Nat :=
  if Rsi id then (calls.lookup id).map (fun c => c.2.1) |>.getD 0 else 7

/-- how many results the line shows -/
def shownVals (id : Nat) : Nat :=
  if Rsi id then (calls.lookup id).map (fun c => c.2.2) |>.getD 0 else 3

/-- words in hexadecimal, a space before each -/
def words (l : List (BitVec 64)) : List Char := l.flatMap fun v => ' ' :: number 16 v.toNat

/-- the names of the statuses -/
def statuses : List String :=
  ["RSI_SUCCESS", "RSI_ERROR_INPUT", "RSI_ERROR_STATE", "RSI_INCOMPLETE", "RSI_ERROR_UNKNOWN", "RSI_ERROR_DEVICE"]

/-- a result: by name when it is a status of a realm call, else the number -/
def result (id : Nat) (x : BitVec 64) : List Char :=
  if Rsi id ∧ x.toNat % 256 < 6 then (statuses.getD (x.toNat % 256) "").toList else number 16 x.toNat

/-- The line for a call: `x` are the registers when the call is made and `y`
when it returns. -/
def line (x y : Nat → BitVec 64) : List Char :=
  let id := (x 0).toNat % 2 ^ 32
  title id ++ List.replicate (29 - (title id).length) ' ' ++
    words ((List.range (shownArgs id)).map fun i => x (i + 1)) ++ " > ".toList ++ result id (y 0) ++
    words ((List.range (shownVals id)).map fun i => y (i + 1)) ++ ['\n']

end Spec

/-! ## The formats in use -/

theorem padTo_zero {c : Char} {s : List Char} : Spec.padTo 0 c s = s := by simp [Spec.padTo]

theorem conv_text (r : List Char) (s : List Char) (va : List Arg) :
    conv ('s' :: r) (.text s :: va) = .ok (s, r, va) := by
  have h1 : parseFlags ('s' :: r) {} = ({}, 's' :: r) := rfl
  have h2 : parseWidth {} ('s' :: r) (.text s :: va) = .ok ({}, 0, 's' :: r, .text s :: va) := rfl
  have h3 : parsePrec {} ('s' :: r) (.text s :: va) = .ok ({}, 0, 's' :: r, .text s :: va) := rfl
  have h4 : parseLen {} ('s' :: r) = ({}, 's' :: r) := rfl
  simp only [conv, h1, h2, h3, h4, Res.ok_bind]
  have h5 : convSpec {} 0 0 ('s' :: r) (.text s :: va) = .ok (convText {} 0 0 s, r, va) := rfl
  rw [h5]
  simp [convText]

theorem conv_lx (r : List Char) (v : BitVec 64) (va : List Arg) :
    conv ('l' :: 'x' :: r) (.word v :: va) = .ok (Spec.number 16 v.toNat, r, va) := by
  have h1 : parseFlags ('l' :: 'x' :: r) {} = ({}, 'l' :: 'x' :: r) := rfl
  have h2 : parseWidth {} ('l' :: 'x' :: r) (.word v :: va) = .ok ({}, 0, 'l' :: 'x' :: r, .word v :: va) := rfl
  have h3 : parsePrec {} ('l' :: 'x' :: r) (.word v :: va) = .ok ({}, 0, 'l' :: 'x' :: r, .word v :: va) := rfl
  have h4 : parseLen {} ('l' :: 'x' :: r) = ({ long := true }, 'x' :: r) := rfl
  simp only [conv, h1, h2, h3, h4, Res.ok_bind]
  have h5 : convSpec { long := true } 0 0 ('x' :: r) (.word v :: va) =
      (convInt 'x' { long := true } 0 0 v >>= fun out => .ok (out, r, va)) := rfl
  rw [h5, convInt_unsigned (Or.inr (Or.inl rfl)) _ ⟨rfl, rfl, rfl, rfl⟩ 0 (by omega), Res.ok_bind]
  have h6 : argBits { long := true } = 64 := rfl
  have h7 : (v.setWidth (argBits { long := true })).toNat = v.toNat := by
    rw [BitVec.toNat_setWidth, h6]; exact Nat.mod_eq_of_lt v.isLt
  rw [h7, padTo_zero]
  rfl

theorem conv_08x (r : List Char) (v : BitVec 32) (va : List Arg) :
    conv ('0' :: '8' :: 'x' :: r) (word32 v :: va) = .ok (Spec.padTo 8 '0' (Spec.number 16 v.toNat), r, va) := by
  have h1 : parseFlags ('0' :: '8' :: 'x' :: r) {} = ({ zeropad := true }, '8' :: 'x' :: r) := rfl
  have h2 : parseWidth { zeropad := true } ('8' :: 'x' :: r) (word32 v :: va) =
      .ok ({ zeropad := true }, 8, 'x' :: r, word32 v :: va) := rfl
  have h3 : parsePrec { zeropad := true } ('x' :: r) (word32 v :: va) =
      .ok ({ zeropad := true }, 0, 'x' :: r, word32 v :: va) := rfl
  have h4 : parseLen { zeropad := true } ('x' :: r) = ({ zeropad := true }, 'x' :: r) := rfl
  simp only [conv, h1, h2, h3, h4, Res.ok_bind]
  have h5 : convSpec { zeropad := true } 8 0 ('x' :: r) (word32 v :: va) =
      (convInt 'x' { zeropad := true } 8 0 (v.setWidth 64) >>= fun out => .ok (out, r, va)) := rfl
  rw [h5, convInt_unsigned (Or.inr (Or.inl rfl)) _ ⟨rfl, rfl, rfl, rfl⟩ 8 (by omega), Res.ok_bind]
  have h6 : argBits { zeropad := true } = 32 := rfl
  have h7 : ((v.setWidth 64).setWidth (argBits { zeropad := true })).toNat = v.toNat := by
    rw [BitVec.toNat_setWidth, BitVec.toNat_setWidth, h6]
    have := v.isLt
    omega
  rw [h7]
  rfl

theorem render_nil (n : Nat) (va : List Arg) : render n [] va = .ok [] := by cases n <;> rfl

theorem render_lit (n : Nat) (c : Char) (hc : c ≠ '%') (r : List Char) (va : List Arg) :
    render (n + 1) (c :: r) va = (render n r va >>= fun out => .ok (c :: out)) := by
  rw [render, if_pos hc]

theorem render_conv (n : Nat) (r : List Char) (va : List Arg) (o r' : List Char) (va' : List Arg)
    (h : conv r va = .ok (o, r', va')) :
    render (n + 1) ('%' :: r) va = (render n r' va' >>= fun out => .ok (o ++ out)) := by
  rw [render, if_neg (by simp), h, Res.ok_bind]

/-- a format, with its arguments, and what it prints -/
def Prints (format : String) (va : List Arg) (text : List Char) : Prop :=
  render format.toList.length format.toList va = .ok text

theorem prints_ss (s t : List Char) : Prints "%s%s" [.text s, .text t] (s ++ t) := by
  show render 4 ['%', 's', '%', 's'] _ = _
  rw [render_conv _ _ _ _ _ _ (conv_text _ _ _), render_conv _ _ _ _ _ _ (conv_text _ _ _), render_nil]
  simp

theorem prints_s (s : List Char) : Prints "%s" [.text s] s := by
  show render 2 ['%', 's'] _ = _
  rw [render_conv _ _ _ _ _ _ (conv_text _ _ _), render_nil]
  simp

theorem prints_s08x (s : List Char) (v : BitVec 32) :
    Prints "%s%08x" [.text s, word32 v] (s ++ Spec.padTo 8 '0' (Spec.number 16 v.toNat)) := by
  show render 6 ['%', 's', '%', '0', '8', 'x'] _ = _
  rw [render_conv _ _ _ _ _ _ (conv_text _ _ _), render_conv _ _ _ _ _ _ (conv_08x _ _ _), render_nil]
  simp

theorem prints_lx (v : BitVec 64) : Prints " %lx" [.word v] (' ' :: Spec.number 16 v.toNat) := by
  show render 4 [' ', '%', 'l', 'x'] _ = _
  rw [render_lit _ _ (by decide), render_conv _ _ _ _ _ _ (conv_lx _ _ _), render_nil]
  simp

theorem prints_code (v : BitVec 64) : Prints " > %lx" [.word v] (" > ".toList ++ Spec.number 16 v.toNat) := by
  show render 6 [' ', '>', ' ', '%', 'l', 'x'] _ = .ok ([' ', '>', ' '] ++ _)
  rw [render_lit _ _ (by decide), render_lit _ _ (by decide), render_lit _ _ (by decide),
    render_conv _ _ _ _ _ _ (conv_lx _ _ _), render_nil]
  simp

theorem prints_status (s : List Char) : Prints " > RSI_%s" [.text s] (" > RSI_".toList ++ s) := by
  show render 9 [' ', '>', ' ', 'R', 'S', 'I', '_', '%', 's'] _ = .ok ([' ', '>', ' ', 'R', 'S', 'I', '_'] ++ _)
  rw [render_lit _ _ (by decide), render_lit _ _ (by decide), render_lit _ _ (by decide),
    render_lit _ _ (by decide), render_lit _ _ (by decide), render_lit _ _ (by decide), render_lit _ _ (by decide),
    render_conv _ _ _ _ _ _ (conv_text _ _ _), render_nil]
  simp

/-! ## Building the line -/

theorem append_text {b : Buf} {line text : List Char} {off len : Nat} {fmt : String} {va : List Arg}
    (hb : b.length = 220) (ht : b.take off = line) (ho : off + len ≤ 220) (hp : Prints fmt va text)
    (hl : text.length < len) :
    ∃ b', snprintf b off len fmt va = .ok (b', (text.length : Int)) ∧ b'.length = 220 ∧
      b'.take (off + text.length) = line ++ text ∧ b'[off + text.length]? = some (Char.ofNat 0) := by
  obtain ⟨b', h1, h2, h3⟩ := snprintf_ok (b := b) (off := off) (count := len) hp (by omega) (by omega)
  refine ⟨b', ?_, h2.trans hb, ?_, ?_⟩
  · rw [h1]
    congr 2
    rw [BitVec.toInt_eq_toNat_cond, BitVec.toNat_ofNat, Nat.mod_eq_of_lt (by omega), if_pos (by omega)]
  · apply List.ext_getElem?
    intro i
    have hline : line.length = off := by rw [← ht, List.length_take]; omega
    rw [List.getElem?_take, h3 i, List.getElem?_append, hline]
    by_cases hi : i < off + text.length
    · rw [if_pos hi]
      by_cases hx : i < off
      · rw [if_neg (by omega), if_neg (by omega), if_pos hx, ← ht, List.getElem?_take, if_pos hx]
      · rw [if_pos (by omega), if_neg hx]
    · rw [if_neg hi, if_neg (by omega), List.getElem?_eq_none (by omega)]
  · rw [h3, if_neg (by omega), if_pos (by omega)]

theorem memset_ok (c : Char) : ∀ (n : Nat) (b : Buf) (i : Nat), i + n ≤ b.length →
    ∃ b', memset b i c n = .ok b' ∧ b'.length = b.length ∧
      ∀ j, b'[j]? = if i ≤ j ∧ j < i + n then some c else b[j]? := by
  intro n
  induction n with
  | zero => intro b i _; exact ⟨b, rfl, rfl, fun j => by rw [if_neg (by omega)]⟩
  | succ n ih =>
    intro b i h
    obtain ⟨b', h1, h2, h3⟩ := ih (b.set i c) (i + 1) (by rw [List.length_set]; omega)
    refine ⟨b', ?_, by rw [h2, List.length_set], fun j => ?_⟩
    · rw [memset, put_ok (by omega), Res.ok_bind, h1]
    · rw [h3 j, List.getElem?_set]
      by_cases hj : i = j
      · subst hj; rw [if_neg (by omega), if_pos rfl, if_pos (by omega), if_pos (by omega)]
      · by_cases hx : i + 1 ≤ j ∧ j < i + 1 + n
        · rw [if_pos hx, if_pos (by omega)]
        · rw [if_neg hx, if_neg hj, if_neg (by omega)]

theorem memset_outside (c : Char) : ∀ (n : Nat) (b : Buf) (i : Nat), b.length < i + n →
    (i ≤ b.length) → memset b i c n = .outside := by
  intro n
  induction n with
  | zero => intro b i h h'; omega
  | succ n ih =>
    intro b i h h'
    rw [memset, put]
    by_cases hi : i < b.length
    · rw [if_pos hi, Res.ok_bind]
      exact ih _ _ (by rw [List.length_set]; omega) (by rw [List.length_set]; omega)
    · rw [if_neg hi]; rfl

theorem toInt_small {n : Nat} (h : n ≤ 220) : toInt n = (n : Int) := by
  rw [toInt, BitVec.toInt_eq_toNat_cond, BitVec.toNat_ofNat, Nat.mod_eq_of_lt (by omega), if_pos (by omega)]

theorem subSize_small {a b : Nat} (h : b ≤ a) (ha : a ≤ 220) : subSize a b = a - b := by
  unfold subSize; omega

theorem assert_true {nd c : Bool} (h : c = true) : assertC nd c = .ok () := by simp [assertC, h]

theorem assert_bind {β : Type} {nd c : Bool} (h : c = true) (k : Unit → Res β) :
    (assertC nd c >>= k) = k () := by rw [assert_true h, Res.ok_bind]

theorem words_cons (v : BitVec 64) (l : List (BitVec 64)) :
    Spec.words (v :: l) = (' ' :: Spec.number 16 v.toNat) ++ Spec.words l := rfl

theorem number64 (v : BitVec 64) : (Spec.number 16 v.toNat).length ≤ 16 :=
  number_length (by omega) (by have := v.isLt; omega)

theorem words_length (l : List (BitVec 64)) : (Spec.words l).length ≤ 17 * l.length := by
  induction l with
  | nil => simp [Spec.words]
  | cons v l ih =>
    have := number64 v
    rw [words_cons]
    simp only [List.length_append, List.length_cons]
    omega

theorem printWords_ok (nd : Bool) : ∀ (l : List (BitVec 64)) (b : Buf) (line : List Char) (off len : Nat),
    b.length = 220 → b.take off = line → off + len = 220 → (Spec.words l).length < len →
    ∃ b', printWords nd l b off len = .ok (b', off + (Spec.words l).length, len - (Spec.words l).length) ∧
      b'.length = 220 ∧ b'.take (off + (Spec.words l).length) = line ++ Spec.words l ∧
      (b[off]? = some (Char.ofNat 0) → b'[off + (Spec.words l).length]? = some (Char.ofNat 0)) := by
  intro l
  induction l with
  | nil =>
    intro b line off len hb ht _ _
    exact ⟨b, rfl, hb, by simpa [Spec.words] using ht, fun h => by simpa [Spec.words] using h⟩
  | cons v l ih =>
    intro b line off len hb ht ho hl
    rw [words_cons] at hl ⊢
    rw [List.length_append] at hl
    have hpos : 0 < (' ' :: Spec.number 16 v.toNat).length := by simp
    have hp := prints_lx v
    generalize htx : (' ' :: Spec.number 16 v.toNat) = text at *
    obtain ⟨b1, h1, h2, h3, h4⟩ := append_text (len := len) hb ht (by omega) hp (by omega)
    obtain ⟨b2, k1, k2, k3, k4⟩ := ih b1 (line ++ text) (off + text.length) (len - text.length) h2 h3 (by omega)
      (by omega)
    refine ⟨b2, ?_, k2, ?_, fun _ => ?_⟩
    · rw [printWords, h1, Res.ok_bind]
      have ha : (decide (0 < (text.length : Int)) && decide ((text.length : Int) < toInt len)) = true := by
        rw [toInt_small (n := len) (by omega)]
        simp only [Bool.and_eq_true, decide_eq_true_eq]
        omega
      simp only [assert_true ha, Res.ok_bind, Int.toNat_natCast]
      rw [subSize_small (by omega) (by omega), k1, List.length_append]
      congr 2
      simp only [Prod.mk.injEq]
      omega
    · rw [List.length_append, ← Nat.add_assoc, k3, List.append_assoc]
    · rw [List.length_append, ← Nat.add_assoc]; exact k4 h4

theorem digits_nonzero {base : Nat} (hb : 1 < base) (hb' : base ≤ 16) : ∀ (n v : Nat),
    Char.ofNat 0 ∉ digits false base n v := by
  intro n
  induction n with
  | zero => intro v; simp [digits]
  | succ n ih =>
    intro v
    rw [digits, List.mem_cons, not_or]
    constructor
    · have : ∀ k : Fin 16, Char.ofNat 0 ≠ digit false k := by decide
      exact this ⟨v % base, by have := Nat.mod_lt v (show 0 < base by omega); omega⟩
    · split
      · exact ih _
      · simp

theorem number_nonzero {v : Nat} (h : v < 2 ^ 64) : Char.ofNat 0 ∉ Spec.number 16 v := by
  rw [Spec.number, ← digits_eq (base := 16) (by omega) (by omega) 32 v (by omega) (base_room (by omega) h),
    List.mem_reverse]
  exact digits_nonzero (by omega) (by omega) _ _

theorem words_nonzero (l : List (BitVec 64)) : Char.ofNat 0 ∉ Spec.words l := by
  rw [Spec.words, List.mem_flatMap]
  rintro ⟨v, _, h⟩
  rw [List.mem_cons] at h
  rcases h with h | h
  · exact absurd h (by decide)
  · exact number_nonzero v.isLt h

theorem cString_ok {b : Buf} {line : List Char} {n : Nat} (ht : b.take n = line)
    (hn : b[n]? = some (Char.ofNat 0)) (hz : Char.ofNat 0 ∉ line) : cString b = .ok line := by
  have hlt : n < b.length := by
    rcases Nat.lt_or_ge n b.length with h | h
    · exact h
    · rw [List.getElem?_eq_none h] at hn; cases hn
  have hd : b = line ++ Char.ofNat 0 :: b.drop (n + 1) := by
    conv_lhs => rw [← List.take_append_drop n b, ht]
    congr 1
    rw [List.drop_eq_getElem_cons hlt]
    congr 1
    rw [List.getElem?_eq_getElem hlt] at hn
    exact Option.some.inj hn
  have hm : Char.ofNat 0 ∈ b := by rw [hd]; simp
  rw [cString, if_pos hm]
  congr 1
  rw [hd, List.takeWhile_append_of_pos (by
    intro a ha
    simp only [ne_eq, decide_eq_true_eq]
    rintro rfl
    exact hz ha)]
  rw [List.takeWhile_cons_of_neg (by simp), List.append_nil]

theorem isRsi_iff (id : BitVec 32) : isRsi id = true ↔ Spec.Rsi id.toNat := by
  simp only [isRsi, Spec.Rsi, Bool.and_eq_true, decide_eq_true_eq, BitVec.le_def]
  rfl

theorem isPsci_iff (id : BitVec 32) : isPsci id = true ↔ Spec.Psci id.toNat := by
  simp only [isPsci, Spec.Psci, Bool.or_eq_true, Bool.and_eq_true, decide_eq_true_eq, BitVec.le_def]
  rfl

/-- what the table holds for the calls with a name that fits -/
theorem table : ∀ k : Fin 32, k ≠ 0x16 →
    (match (handlerAt k).name with
      | some n => "SMC_RSI".toList ++ n.toList
      | none => "SMC_RSI_<unsupported>".toList) = Spec.title (0xC4000190 + k) ∧
    (Spec.title (0xC4000190 + k)).length ≤ 29 ∧ 0 < (Spec.title (0xC4000190 + k)).length ∧
    Char.ofNat 0 ∉ Spec.title (0xC4000190 + k) ∧
    (handlerAt k).args = Spec.shownArgs (0xC4000190 + k) ∧ (handlerAt k).vals = Spec.shownVals (0xC4000190 + k) ∧
    29 + 17 * (handlerAt k).args + 20 + 17 * (handlerAt k).vals < 220 := by
  decide +kernel

theorem rsi_index {id : BitVec 32} (h : Spec.Rsi id.toNat) :
    ∃ k : Fin 32, id.toNat = 0xC4000190 + k ∧ handler id = handlerAt k := by
  obtain ⟨h1, h2⟩ := h
  refine ⟨⟨id.toNat - 0xC4000190, by omega⟩, by simp only; omega, ?_⟩
  unfold handler
  apply congrArg handlerAt
  have hc : (0xC4000190#32).toNat = 0xC4000190 := by decide
  rw [BitVec.toNat_sub, hc]
  have := id.isLt
  show _ = id.toNat - 0xC4000190
  omega

theorem padTo_8 (id : BitVec 32) : (Spec.padTo 8 '0' (Spec.number 16 id.toNat)).length = 8 := by
  have := number_length (v := id.toNat) (n := 8) (by omega) (by have := id.isLt; omega)
  simp only [Spec.padTo, List.length_append, List.length_replicate]
  omega

theorem padTo_nonzero (id : BitVec 32) : Char.ofNat 0 ∉ Spec.padTo 8 '0' (Spec.number 16 id.toNat) := by
  rw [Spec.padTo, List.mem_append, not_or]
  refine ⟨fun h => absurd (List.eq_of_mem_replicate h) (by decide), number_nonzero ?_⟩
  have := id.isLt; omega

/-- the facts about an identifier the rest needs -/
structure Fits (id : BitVec 32) : Prop where
  title : (Spec.title id.toNat).length ≤ 29
  pos : 0 < (Spec.title id.toNat).length
  text : Char.ofNat 0 ∉ Spec.title id.toNat
  args : numArgs id = Spec.shownArgs id.toNat
  vals : numVals id = Spec.shownVals id.toNat
  room : 29 + 17 * numArgs id + (if isRsi id then 20 else 19) + 17 * numVals id < 220

theorem fits {id : BitVec 32} (h : id ≠ 0xC40001A6#32) : Fits id := by
  by_cases hr : Spec.Rsi id.toNat
  · obtain ⟨k, hk, hh⟩ := rsi_index hr
    have hk' : k ≠ 0x16 := by
      rintro rfl
      apply h
      apply BitVec.eq_of_toNat_eq
      rw [hk]; rfl
    obtain ⟨_, t2, t3, t4, t5, t6, t7⟩ := table k hk'
    have hi := (isRsi_iff id).mpr hr
    constructor <;> (try simp only [numArgs, numVals, hi, if_true, hh, hk]) <;> assumption
  · have hi : isRsi id = false := by
      rw [← Bool.not_eq_true, isRsi_iff]; exact hr
    have hp := padTo_8 id
    have hz := padTo_nonzero id
    have e1 : "PSCI_".toList.length = 5 ∧ "SMC_".toList.length = 4 ∧ Char.ofNat 0 ∉ "PSCI_".toList ∧
        Char.ofNat 0 ∉ "SMC_".toList := by decide
    obtain ⟨e1, e2, e3, e4⟩ := e1
    refine ⟨?_, ?_, ?_, ?_, ?_, ?_⟩
    · rw [Spec.title, if_neg hr]; split <;> rw [List.length_append] <;> omega
    · rw [Spec.title, if_neg hr]; split <;> rw [List.length_append] <;> omega
    · rw [Spec.title, if_neg hr]; split <;> rw [List.mem_append, not_or] <;> exact ⟨by assumption, hz⟩
    · simp only [numArgs, hi, Spec.shownArgs, if_neg hr, Bool.false_eq_true, if_false]
    · simp only [numVals, hi, Spec.shownVals, if_neg hr, Bool.false_eq_true, if_false]
    · simp only [numArgs, numVals, hi, Bool.false_eq_true, if_false]; omega

theorem printName_eq {id : BitVec 32} (h : id ≠ 0xC40001A6#32) :
    ∃ fmt va, (∀ b, printName b id = snprintf b 0 30 fmt va) ∧ Prints fmt va (Spec.title id.toNat) := by
  by_cases hr : Spec.Rsi id.toNat
  · obtain ⟨k, hk, hh⟩ := rsi_index hr
    have hk' : k ≠ 0x16 := by
      rintro rfl
      apply h
      apply BitVec.eq_of_toNat_eq
      rw [hk]; rfl
    obtain ⟨t1, _⟩ := table k hk'
    have hi := (isRsi_iff id).mpr hr
    rw [hk, ← t1]
    cases hn : (handlerAt k).name with
    | some n =>
      refine ⟨_, _, fun b => ?_, prints_ss _ _⟩
      simp only [printName, hi, if_true, hh, hn]; rfl
    | none =>
      refine ⟨_, _, fun b => ?_, prints_s _⟩
      simp only [printName, hi, if_true, hh, hn]; rfl
  · have hi : isRsi id = false := by
      rw [← Bool.not_eq_true, isRsi_iff]; exact hr
    rw [Spec.title, if_neg hr]
    by_cases hp : Spec.Psci id.toNat
    · rw [if_pos hp]
      refine ⟨_, _, fun b => ?_, prints_s08x _ _⟩
      simp only [printName, hi, (isPsci_iff id).mpr hp, if_true, Bool.false_eq_true, if_false]; rfl
    · rw [if_neg hp]
      have hq : isPsci id = false := by rw [← Bool.not_eq_true, isPsci_iff]; exact hp
      refine ⟨_, _, fun b => ?_, prints_s08x _ _⟩
      simp only [printName, hi, hq, Bool.false_eq_true, if_false]; rfl

theorem printEntry_ok (nd : Bool) {id : BitVec 32} (h : id ≠ 0xC40001A6#32) (b : Buf) (hb : b.length = 220)
    (args : Nat → BitVec 64) :
    let l := (List.range (numArgs id)).map args
    let line := Spec.title id.toNat ++ List.replicate (29 - (Spec.title id.toNat).length) ' ' ++ Spec.words l
    ∃ b', printEntry nd b id args = .ok (b', line.length, 220 - line.length) ∧ b'.length = 220 ∧
      b'.take line.length = line ∧ line.length ≤ 29 + 17 * numArgs id := by
  intro l line
  have hf := fits h
  obtain ⟨fmt, va, hn, hp⟩ := printName_eq h
  generalize ht : Spec.title id.toNat = t at *
  have ft := hf.title
  have fp := hf.pos
  rw [ht] at ft fp
  obtain ⟨b1, h1, h2, h3, _⟩ := append_text (b := b) (line := []) (off := 0) (len := 30) hb rfl (by omega) hp (by omega)
  obtain ⟨b2, m1, m2, m3⟩ := memset_ok ' ' (29 - t.length) b1 t.length (by omega)
  have hw : (Spec.words l).length ≤ 17 * numArgs id := by
    have := words_length l
    simpa [l] using this
  have hroom := hf.room
  have htake : b2.take 29 = t ++ List.replicate (29 - t.length) ' ' := by
    apply List.ext_getElem?
    intro i
    rw [List.getElem?_take, m3 i, List.getElem?_append, List.getElem?_replicate]
    by_cases hi : i < t.length
    · rw [if_pos (by omega), if_neg (by omega), if_pos hi]
      have := congrArg (fun x => x[i]?) h3
      simp only [List.getElem?_take, Nat.zero_add, if_pos hi, List.nil_append] at this
      exact this
    · rw [if_neg hi]
      by_cases hj : i < 29
      · rw [if_pos hj, if_pos (by omega), if_pos (by omega)]
      · rw [if_neg hj, if_neg (by omega)]
  obtain ⟨b3, w1, w2, w3, _⟩ := printWords_ok nd l b2 _ 29 191 (m2.trans h2) htake (by omega)
    (by revert hroom; split <;> intro hroom <;> omega)
  have hlen : line.length = 29 + (Spec.words l).length := by
    simp only [line, ht, List.length_append, List.length_replicate]; omega
  refine ⟨b3, ?_, w2, ?_, by omega⟩
  · rw [printEntry, hn, h1, Res.ok_bind]
    have ha : (t.length : Int) < (MAX_NAME_LEN : Int) + 1 := by simp only [MAX_NAME_LEN]; omega
    dsimp only
    rw [assert_bind (by simp only [Bool.and_eq_true, decide_eq_true_eq]; exact ⟨by omega, ha⟩)]
    simp only [MAX_NAME_LEN, Int.toNat_natCast]
    rw [subSize_small (a := 29) ft (by omega), m1, Res.ok_bind]
    show printWords nd l b2 29 (subSize BUFFER_SIZE 29) = _
    rw [show subSize BUFFER_SIZE 29 = 191 from by decide, w1, hlen,
      show 191 - (Spec.words l).length = 220 - (29 + (Spec.words l).length) by omega]
  · rw [hlen, w3]; simp only [line, ht]

theorem statusName_facts : ∀ k : Fin 6,
    " > RSI_".toList ++ (statusName k).toList = " > ".toList ++ (Spec.statuses.getD k "").toList ∧
    ((Spec.statuses.getD k "").toList).length ≤ 17 ∧ Char.ofNat 0 ∉ (Spec.statuses.getD k "").toList := by
  decide

/-- the status or the code -/
theorem printResult_eq (id : BitVec 32) (x : BitVec 64) :
    ∃ fmt va, (∀ b off len, printResult b id off len x = snprintf b off len fmt va) ∧ Prints fmt va (" > ".toList ++ Spec.result id.toNat x) ∧
      (" > ".toList ++ Spec.result id.toNat x).length ≤ (if isRsi id then 20 else 19) ∧
      Char.ofNat 0 ∉ Spec.result id.toNat x := by
  have e3 : " > ".toList.length = 3 := by decide
  have hn := number64 x
  have hz := number_nonzero x.isLt
  by_cases hr : isRsi id = true
  · have hr' := (isRsi_iff id).mp hr
    by_cases hs : x.toNat % 256 < 6
    · obtain ⟨f1, f2, f3⟩ := statusName_facts ⟨x.toNat % 256, hs⟩
      rw [Spec.result, if_pos ⟨hr', hs⟩, if_pos hr, List.length_append]
      refine ⟨_, _, fun b off len => ?_, f1 ▸ prints_status _, by simp only at f2; omega, f3⟩
      rw [printResult, if_pos hr, printStatus, if_neg (by omega)]
    · rw [Spec.result, if_neg (fun h => hs h.2), if_pos hr, List.length_append]
      refine ⟨_, _, fun b off len => ?_, prints_code _, by omega, hz⟩
      rw [printResult, if_pos hr, printStatus, if_pos (by omega)]
  · have hr' : ¬ Spec.Rsi id.toNat := fun h => hr ((isRsi_iff id).mpr h)
    rw [Spec.result, if_neg (fun h => hr' h.1), if_neg hr, List.length_append]
    refine ⟨_, _, fun b off len => ?_, prints_code _, by omega, hz⟩
    rw [printResult, if_neg hr, printCode]

/-- **C45.**  What is missing from the claim is one call, for which it fails
(`C45_interface_report`).  For every other call, whatever the registers hold, the line is
built inside the buffer, no assertion fails and the line printed is the one
specified: this holds with and without assertions. -/
theorem C45_line_partial (nd : Bool) (junk : List Char) (hj : junk.length = 220) (x y : Nat → BitVec 64)
    (h : (x 0).setWidth 32 ≠ 0xC40001A6#32) : logCall nd junk x y = .ok (Spec.line x y) := by
  have hid : ((x 0).setWidth 32).toNat = (x 0).toNat % 2 ^ 32 := BitVec.toNat_setWidth 32 _
  unfold logCall Spec.line
  simp only [← hid]
  generalize (x 0).setWidth 32 = id at *
  have hf := fits h
  obtain ⟨b1, e1, e2, e3, e4⟩ := printEntry_ok nd h junk hj (fun i => x (i + 1))
  rw [← hf.args, ← hf.vals]
  generalize hl1 : Spec.title id.toNat ++ List.replicate (29 - (Spec.title id.toNat).length) ' ' ++
    Spec.words ((List.range (numArgs id)).map fun i => x (i + 1)) = line1 at *
  obtain ⟨fmt, va, r1, r2, r3, r4⟩ := printResult_eq id (y 0)
  have hroom := hf.room
  generalize hres : " > ".toList ++ Spec.result id.toNat (y 0) = res at *
  obtain ⟨b2, f1, f2, f3, f4⟩ := append_text (len := 220 - line1.length) e2 e3 (by omega) r2 (by omega)
  have hw : (Spec.words ((List.range (numVals id)).map fun i => y (i + 1))).length ≤ 17 * numVals id := by
    have := words_length ((List.range (numVals id)).map fun i => y (i + 1))
    simpa using this
  generalize hvals : (List.range (numVals id)).map (fun i => y (i + 1)) = vals at *
  obtain ⟨b3, g1, g2, g3, g4⟩ := printWords_ok nd vals b2 _ (line1.length + res.length)
    (220 - line1.length - res.length) f2 f3 (by omega) (by omega)
  have hpos : 0 < res.length := by
    rw [← hres, List.length_append]
    have : " > ".toList.length = 3 := by decide
    omega
  have ha : (decide (0 < (res.length : Int)) && decide ((res.length : Int) < toInt (220 - line1.length))) = true := by
    rw [toInt_small (by omega)]
    simp only [Bool.and_eq_true, decide_eq_true_eq]
    omega
  have hnul : Char.ofNat 0 ∉ line1 ++ res ++ Spec.words vals := by
    rw [← hl1, ← hres]
    have hsp : Char.ofNat 0 ∉ " > ".toList := by decide
    have hre : Char.ofNat 0 ∉ List.replicate (29 - (Spec.title id.toNat).length) ' ' :=
      fun h => absurd (List.eq_of_mem_replicate h) (by decide)
    simp only [List.mem_append, not_or]
    exact ⟨⟨⟨⟨hf.text, hre⟩, words_nonzero _⟩, hsp, r4⟩, words_nonzero _⟩
  rw [rsiLogOnExit, e1, Res.ok_bind]
  dsimp only
  rw [r1, f1, Res.ok_bind]
  dsimp only
  rw [assert_bind ha, Int.toNat_natCast, subSize_small (by omega) (by omega), hvals, g1, Res.ok_bind]
  simp only
  rw [cString_ok g3 (g4 f4) hnul, Res.ok_bind, ← hres]
  congr 1
  simp only [List.append_assoc]

/-- **C45, the exception.**  The call `SMC_RSI_RDEV_GET_INTERFACE_REPORT`,
which any realm may make, has a name of 33 characters for which the code
provides 29: with assertions the RMM stops, without them `memset` is given a
size of 2^64 - 4 and writes past the buffer. -/
theorem C45_interface_report (junk : List Char) (hj : junk.length = 220) (x y : Nat → BitVec 64)
    (h : (x 0).setWidth 32 = 0xC40001A6#32) :
    logCall false junk x y = .assertion ∧ logCall true junk x y = .outside := by
  have hp := prints_ss "SMC_RSI".toList "_RDEV_GET_INTERFACE_REPORT".toList
  obtain ⟨b1, h1, h2, _⟩ := snprintf_ok (b := junk) (off := 0) (count := 30) hp (by omega) (by omega)
  have hn : printName junk 0xC40001A6#32 = .ok (b1, 33) := by
    have : printName junk 0xC40001A6#32 = snprintf junk 0 30 "%s%s" [.text "SMC_RSI".toList,
      .text "_RDEV_GET_INTERFACE_REPORT".toList] := rfl
    rw [this, h1]
    rfl
  have hcond : (decide ((0 : Int) < 33) && decide ((33 : Int) < (MAX_NAME_LEN : Int) + 1)) = false := by decide
  constructor
  · rw [logCall, h, rsiLogOnExit, printEntry, hn, Res.ok_bind]
    have : assertC false (decide ((0 : Int) < 33) && decide ((33 : Int) < (MAX_NAME_LEN : Int) + 1)) = .assertion := by
      rw [hcond]; rfl
    simp only [this, Res.assertion_bind]
  · have hN : b1.length < 33 + subSize MAX_NAME_LEN (33 : Int).toNat := by
      have : subSize MAX_NAME_LEN (33 : Int).toNat = 2 ^ 64 - 4 := by decide
      omega
    have hm := memset_outside ' ' _ b1 33 hN (by omega)
    have h33 : (33 : Int).toNat = 33 := rfl
    have : assertC true (decide ((0 : Int) < 33) && decide ((33 : Int) < (MAX_NAME_LEN : Int) + 1)) = .ok () := by
      rw [hcond]; rfl
    rw [h33] at hm
    rw [logCall, h, rsiLogOnExit, printEntry, hn, Res.ok_bind]
    simp only [this, Res.ok_bind, h33, hm, Res.outside_bind]

/-- The hypotheses of the theorems hold: a call of `SMC_RSI_HOST_CALL` with
the line it prints. -/
example : logCall false (List.replicate 220 'z') (fun i => if i = 0 then 0xC4000199#64 else 0x80001000#64)
    (fun _ => 0#64) = .ok "SMC_RSI_HOST_CALL             80001000 > RSI_SUCCESS\n".toList := by
  decide +kernel

/-- the longest line: it fills the buffer to the last character but one -/
example : (Spec.line (fun i => if i = 0 then 0xC4000193#64 else BitVec.allOnes 64) (fun _ => 4#64)).length = 220 := by
  decide +kernel

end Verif.Log
