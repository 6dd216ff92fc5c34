import Verif.Console.Model

/-!
# C76: the console says what was printed
-/

namespace Verif.Console

/-! ## The list of consoles -/

/-- The sum of the first `n` words at `a`, as a number. -/
def wordSum (m : BitVec 64 → BitVec 64) (a : BitVec 64) (n : Nat) : Nat :=
  ((List.range n).map fun i => (m (a + BitVec.ofNat 64 (8 * i))).toNat).sum

theorem sumLoop_eq (m : BitVec 64 → BitVec 64) (a : BitVec 64) (n : Nat) :
    (sumLoop m a n).toNat = wordSum m a n % 2 ^ 64 := by
  induction n with
  | zero => simp [sumLoop, wordSum]
  | succ n ih =>
    have : wordSum m a (n + 1) = wordSum m a n + (m (a + BitVec.ofNat 64 (8 * n))).toNat := by
      simp [wordSum, List.range_succ]
    rw [sumLoop, BitVec.toNat_add, ih, this]
    omega

theorem and7 (x : BitVec 64) : x &&& 7 = 0 ↔ x.toNat % 8 = 0 := by
  rw [← BitVec.toNat_inj, BitVec.toNat_and]
  show x.toNat &&& (2 ^ 3 - 1) = 0 ↔ _
  rw [Nat.and_two_pow_sub_one_eq_mod]

/-- **C76, partial.** If the size of the array fits in 64 bits, the list is accepted exactly if the version is at
least 0.3 and the words of the list and of all its elements add up to 0. What is missing: for larger numbers,
see `C76_list_wrap`. An array that is not aligned fails an assertion, and nothing else does. -/
theorem C76_list_partial (m : BitVec 64 → BitVec 64) (b : Manifest) (hn : 48 * b.num.toNat < 2 ^ 64) :
    (getConsoleList m b = .ok ↔ 3 ≤ b.version.toNat ∧ b.ptr.toNat % 8 = 0 ∧
      2 ^ 64 ∣ b.num.toNat + b.ptr.toNat + b.checksum.toNat + wordSum m b.ptr (6 * b.num.toNat)) ∧
    (getConsoleList m b = .assertFails ↔ 3 ≤ b.version.toNat ∧ b.ptr.toNat % 8 ≠ 0) := by
  have hs : (infoSize * b.num).toNat = 48 * b.num.toNat := by
    rw [infoSize, BitVec.toNat_mul]
    exact Nat.mod_eq_of_lt hn
  have h6 : (infoSize * b.num).toNat / 8 = 6 * b.num.toNat := by omega
  have hs8 : infoSize * b.num &&& 7 = 0 := (and7 _).2 (by omega)
  have hlt : b.version < 3 ↔ b.version.toNat < 3 := by rw [BitVec.lt_def]; rfl
  have hz : (b.num + b.ptr + b.checksum + sumLoop m b.ptr (6 * b.num.toNat) = 0) ↔
      2 ^ 64 ∣ b.num.toNat + b.ptr.toNat + b.checksum.toNat + wordSum m b.ptr (6 * b.num.toNat) := by
    rw [← BitVec.toNat_inj, BitVec.toNat_add, BitVec.toNat_add, BitVec.toNat_add, sumLoop_eq]
    show _ = 0 ↔ _
    rw [Nat.dvd_iff_mod_eq_zero]
    omega
  unfold getConsoleList checksumCalc
  rw [h6]
  by_cases hv : b.version < 3
  · rw [if_pos hv]
    have := hlt.1 hv
    refine ⟨⟨fun h => (by cases h), fun h => (by omega)⟩, ⟨fun h => (by cases h), fun h => (by omega)⟩⟩
  · rw [if_neg hv]
    have hv' : 3 ≤ b.version.toNat := by
      have := mt hlt.2 hv
      omega
    by_cases hp : b.ptr &&& 7 = 0
    · have hp' := (and7 _).1 hp
      simp only [hp, hs8, ne_eq, not_true_eq_false, if_false, ite_not]
      by_cases hc : b.num + b.ptr + b.checksum + sumLoop m b.ptr (6 * b.num.toNat) = 0
      · rw [if_pos hc]
        exact ⟨⟨fun _ => ⟨hv', hp', hz.1 hc⟩, fun _ => rfl⟩, ⟨fun h => (by cases h), fun h => absurd hp' h.2⟩⟩
      · rw [if_neg hc]
        exact ⟨⟨fun h => (by cases h), fun h => absurd (hz.2 h.2.2) hc⟩, ⟨fun h => (by cases h), fun h => absurd hp' h.2⟩⟩
    · have hp' : b.ptr.toNat % 8 ≠ 0 := fun h => hp ((and7 _).2 h)
      simp only [hp, ne_eq, not_false_eq_true, if_true]
      exact ⟨⟨fun h => (by cases h), fun h => absurd h.2.1 hp'⟩, ⟨fun _ => ⟨hv', hp'⟩, fun _ => trivial⟩⟩

/-- A list of one UART at address 0x1000. -/
def demoMem : BitVec 64 → BitVec 64 := fun a =>
  if a = 0x1000 then 0x1c090000 else if a = 0x1008 then 1 else if a = 0x1010 then 0x3131306c70
  else if a = 0x1018 then 24000000 else if a = 0x1020 then 115200 else 0

def demoList : Manifest := ⟨3, 1, 0x1000, 0xffffffceb1568b8e⟩

theorem demo_ck : demoList.checksum = -(1 + 0x1000 + 0x1c090000 + 1 + 0x3131306c70 + 24000000 + 115200) := by decide

/-- A list that meets the hypothesis, is accepted, and gives a UART with the divisor 13 + 1/64. -/
example : 48 * demoList.num.toNat < 2 ^ 64 ∧ getConsoleList demoMem demoList = .ok ∧
    platSetup demoMem demoList = .uart 0x1c090000
      [(.cr, 0), (.ibrd, 13), (.fbrd, 1), (.lcrh, 0x70), (.ecr, 0), (.cr, 0x301)] := by decide

/-- **C76.** The size of the array is computed in 64 bits and the number of consoles has no bound (unlike the
number of DRAM banks, lines 125-128): a list of 2^60 consoles at address 0 is accepted without reading any of
it, and then the first one is read from address 0. -/
theorem C76_list_wrap : ∃ b : Manifest, b.ptr = 0 ∧ b.num ≠ 0 ∧ 48 * b.num.toNat ≥ 2 ^ 64 ∧
    (∀ m, getConsoleList m b = .ok) ∧
    ∀ m, isPl011 (m 16) = true → m 0 ≠ 0 → (m 24).setWidth 32 ≠ 0#32 → (m 32).setWidth 32 ≠ 0#32 →
      ∃ w, platSetup m b = .uart (m 0) w := by
  refine ⟨⟨3, BitVec.ofNat 64 (2 ^ 60), 0, BitVec.ofNat 64 (2 ^ 64 - 2 ^ 60)⟩, rfl, by decide, by decide, ?_, ?_⟩
  · intro m
    rfl
  · intro m h1 h2 h3 h4
    have hok : getConsoleList m ⟨3, BitVec.ofNat 64 (2 ^ 60), 0, BitVec.ofNat 64 (2 ^ 64 - 2 ^ 60)⟩ = .ok := rfl
    have hn : BitVec.ofNat 64 (2 ^ 60) ≠ 0 := by decide
    unfold platSetup
    rw [hok]
    have e : readInfo m 0 = ⟨m 0, m 16, m 24, m 32⟩ := rfl
    have hg : ¬ (m 0 = 0 ∨ (m 24).setWidth 32 = (0 : BitVec 32) ∨ (m 32).setWidth 32 = (0 : BitVec 32)) := by
      rintro (h | h | h)
      · exact h2 h
      · exact h3 h
      · exact h4 h
    simp only [ne_eq, not_true_eq_false, if_false, hn, e, h1, Bool.true_eq_false, pl011Init]
    rw [if_neg hg]
    exact ⟨_, rfl⟩

/-! ## The UART -/

/-- The UART of the manual: the divisor registers are read when LCR_H is written; bit 0 of CR enables it. -/
structure Uart where
  en : Bool
  tx : Bool
  ibrd : Nat
  fbrd : Nat
  /-- the divisor in use, in 64ths -/
  div : Nat
  /-- eight bits, FIFOs on, one stop bit, no parity -/
  format : Bool
  /-- a register that must not be written while the UART is enabled has been -/
  bad : Bool
  deriving DecidableEq

/-- IBRD has 16 bits, FBRD has 6. -/
def Uart.write (u : Uart) : Reg × BitVec 32 → Uart
  | (.cr, v) => { u with en := v.getLsbD 0, tx := v.getLsbD 8 }
  | (.ibrd, v) => { u with ibrd := v.toNat % 65536, bad := u.bad || u.en }
  | (.fbrd, v) => { u with fbrd := v.toNat % 64, bad := u.bad || u.en }
  | (.lcrh, v) => { u with div := u.ibrd * 64 + u.fbrd, format := v == 0x70, bad := u.bad || u.en }
  | (.ecr, _) => u

/-- **C76, partial.** Below 2^30 Hz, and if the divisor is one that the UART can have (between 1 and 65536), the
UART ends up enabled for sending, with eight bits and FIFOs, with the largest divisor not above
clock / (16 * baud rate), to 1/64, whatever it was set to before, and is disabled while the divisor is changed.
What is missing: `C76_uart_wrap`. -/
theorem C76_uart_partial (base : BitVec 64) (clk baud : BitVec 32) (u : Uart) (hu : u.bad = false)
    (hb : base ≠ 0) (h0 : baud ≠ 0) (h1 : 16 * baud.toNat ≤ clk.toNat) (h2 : clk.toNat < 16 * baud.toNat * 65536)
    (h3 : clk.toNat < 2 ^ 30) :
    ∃ ws, pl011Init base clk baud = some ws ∧
      let v := ws.foldl Uart.write u
      v.en = true ∧ v.tx = true ∧ v.format = true ∧ v.bad = false ∧
      16 * baud.toNat * v.div ≤ 64 * clk.toNat ∧ 64 * clk.toNat < 16 * baud.toNat * (v.div + 1) := by
  have hb0 : 0 < baud.toNat := by
    rcases Nat.eq_zero_or_pos baud.toNat with h | h
    · exact absurd (BitVec.eq_of_toNat_eq (by simpa using h)) h0
    · exact h
  have hc : clk ≠ 0 := by
    rintro rfl
    simp at h1
    omega
  refine ⟨_, by unfold pl011Init; rw [if_neg (fun hh => hh.elim hb (fun hh => hh.elim hc h0))], ?_⟩
  have hd : ((clk * 4) / baud).toNat = 4 * clk.toNat / baud.toNat := by
    rw [BitVec.toNat_udiv, BitVec.toNat_mul]
    show clk.toNat * 4 % 2 ^ 32 / baud.toNat = _
    rw [Nat.mod_eq_of_lt (by omega), Nat.mul_comm]
  generalize hq : (clk * 4) / baud = q at hd
  have e1 : (q >>> 6).toNat = q.toNat / 64 := by simp [BitVec.toNat_ushiftRight, Nat.shiftRight_eq_div_pow]
  have e2 : (q &&& 0x3f).toNat = q.toNat % 64 := by
    rw [BitVec.toNat_and]
    show q.toNat &&& (2 ^ 6 - 1) = _
    rw [Nat.and_two_pow_sub_one_eq_mod]
  have hlt : q.toNat < 65536 * 64 := by
    rw [hd]
    apply Nat.div_lt_of_lt_mul
    omega
  have hdv : q.toNat / 64 % 65536 * 64 + q.toNat % 64 % 64 = q.toNat := by omega
  have hm := Nat.div_add_mod (4 * clk.toNat) baud.toNat
  have hr := Nat.mod_lt (4 * clk.toNat) hb0
  rw [← hd] at hm
  simp only [List.foldl_cons, List.foldl_nil, Uart.write, e1, e2, hdv, hu]
  refine ⟨rfl, rfl, rfl, rfl, ?_, ?_⟩
  · have : 16 * baud.toNat * q.toNat = 16 * (baud.toNat * q.toNat) := by rw [Nat.mul_assoc]
    omega
  · have : 16 * baud.toNat * (q.toNat + 1) = 16 * (baud.toNat * q.toNat) + 16 * baud.toNat := by
      rw [Nat.mul_assoc, Nat.mul_add, Nat.mul_add]; omega
    omega

/-- The usual UART of the model platform meets the hypotheses. -/
example : (16 * (115200#32).toNat ≤ (24000000#32).toNat) ∧ (24000000#32).toNat < 16 * (115200#32).toNat * 65536 ∧
    (24000000#32).toNat < 2 ^ 30 := by decide

/-- **C76.** From 2^30 Hz the product wraps: with a clock of 2^30 Hz and 115200 baud the divisor should be 582,
and is 0, which the UART does not support. Also, a clock of 2^32 Hz + 24 MHz is taken for one of 24 MHz. -/
theorem C76_uart_wrap :
    (∃ ws, pl011Init 0x1c090000 (BitVec.ofNat 32 (2 ^ 30)) 115200 = some ws ∧
      (ws.foldl Uart.write ⟨false, false, 0, 0, 0, false, false⟩).div = 0 ∧ 2 ^ 30 / (16 * 115200) = 582) ∧
    (BitVec.ofNat 64 (2 ^ 32 + 24000000)).setWidth 32 = (24000000#32) := by
  refine ⟨⟨_, rfl, by decide, by decide⟩, by decide⟩

/-- Byte `i` of a word in memory. -/
def byteAt (w : BitVec 64) (i : Nat) : Nat := w.toNat / 256 ^ i % 256

theorem isPl011_iff (w : BitVec 64) :
    isPl011 w = true ↔ (List.range 6).map (byteAt w) = [0x70, 0x6c, 0x30, 0x31, 0x31, 0] := by
  have hm : (w &&& 0xffffffffffff).toNat = w.toNat % 2 ^ 48 := by
    rw [BitVec.toNat_and]
    show w.toNat &&& (2 ^ 48 - 1) = _
    rw [Nat.and_two_pow_sub_one_eq_mod]
  have hl : (List.range 6).map (byteAt w) = [byteAt w 0, byteAt w 1, byteAt w 2, byteAt w 3, byteAt w 4, byteAt w 5] := rfl
  rw [isPl011, beq_iff_eq, ← BitVec.toNat_inj, hm, hl]
  show w.toNat % 2 ^ 48 = 0x003131306c70 ↔ _
  simp only [List.cons.injEq, and_true, byteAt]
  generalize w.toNat = n
  omega

/-- **C76.** The console is set up exactly if the list is accepted and not empty and its first element is called
`pl011` and has a base address, a clock and a baud rate that are not 0 (the last two in their lower 32 bits): then it
is the UART at that base address, set up with these. An empty list is no failure, anything else is. -/
theorem C76_setup (m : BitVec 64 → BitVec 64) (b : Manifest) :
    (∀ base ws, platSetup m b = .uart base ws ↔ getConsoleList m b = .ok ∧ b.num ≠ 0 ∧
      (List.range 6).map (byteAt (m (b.ptr + 16))) = "pl011".toList.map Char.toNat ++ [0] ∧ base = m b.ptr ∧
      pl011Init base ((m (b.ptr + 24)).setWidth 32) ((m (b.ptr + 32)).setWidth 32) = some ws) ∧
    (platSetup m b = .none ↔ getConsoleList m b = .ok ∧ b.num = 0) ∧
    (∀ base clk baud, pl011Init base clk baud ≠ none ↔ base ≠ 0 ∧ clk ≠ 0 ∧ baud ≠ 0) := by
  have hname : "pl011".toList.map Char.toNat ++ [0] = [0x70, 0x6c, 0x30, 0x31, 0x31, 0] := by decide
  refine ⟨fun base ws => ?_, ?_, fun base clk baud => ?_⟩
  · rw [hname, ← isPl011_iff]
    unfold platSetup readInfo
    by_cases h1 : getConsoleList m b = .ok
    · by_cases h2 : b.num = 0
      · simp [h1, h2]
      · by_cases h3 : isPl011 (m (b.ptr + 16)) = true
        · simp only [h1, h2, h3, ne_eq, not_true_eq_false, not_false_eq_true, if_false, Bool.true_eq_false, true_and]
          split
          · rename_i hp
            exact ⟨fun h => (by cases h), fun ⟨h4, h5⟩ => by rw [h4, hp] at h5; cases h5⟩
          · rename_i w hp
            constructor
            · intro h; cases h; exact ⟨rfl, hp⟩
            · rintro ⟨rfl, h5⟩; rw [hp] at h5; cases h5; rfl
        · simp only [Bool.not_eq_true] at h3
          simp only [h1, h2, h3, ne_eq, not_true_eq_false, if_false, if_true, Bool.false_eq_true, false_and, and_false, iff_false]
          exact nofun
    · simp [h1]
  · unfold platSetup
    by_cases h1 : getConsoleList m b = .ok
    · by_cases h2 : b.num = 0
      · simp [h1, h2]
      · simp only [h1, h2, ne_eq, not_true_eq_false, if_false, and_false, iff_false]
        split
        · simp
        · split <;> simp
    · simp [h1]
  · unfold pl011Init
    by_cases h : base = 0 ∨ clk = 0 ∨ baud = 0
    · rw [if_pos h]; constructor
      · intro hh; exact absurd rfl hh
      · rintro ⟨h1, h2, h3⟩; exact absurd h (by rintro (h | h | h) <;> contradiction)
    · rw [if_neg h]
      refine ⟨fun _ => ⟨fun e => h (.inl e), fun e => h (.inr (.inl e)), fun e => h (.inr (.inr e))⟩, fun _ => by simp⟩

/-! ## What is printed -/

variable {T : Type} [DecidableEq T]

/-- Line ends become CR LF; a character is its low byte. -/
def onTheWire (cs : List (BitVec 32)) : List (BitVec 8) :=
  cs.flatMap fun c => if c.toNat % 256 = 10 then [13, 10] else [BitVec.ofNat 8 c.toNat]

/-- The characters printed by an execution. -/
def printed : List (Act T) → List (BitVec 32)
  | [] => []
  | .call _ c :: as => c :: printed as
  | _ :: as => printed as

/-- No two CPUs print at the same time: a call is made only when all CPUs have finished theirs. -/
def Serial (cap : Nat) (s : St T) : List (Act T) → Prop
  | [] => True
  | a :: as => (∀ t c, a = .call t c → ∀ u, s.pc u = .idle) ∧ ∀ s', step cap s a = some s' → Serial cap s' as

/-- What a CPU still has to write. -/
def Pc.todo : Pc → List (BitVec 8)
  | .idle => []
  | .wait cs => cs
  | .write c cs => c :: cs

theorem bytesOf_wire (c : BitVec 32) : bytesOf c = onTheWire [c] := by
  have h : (c.setWidth 8 = 10#8) ↔ c.toNat % 256 = 10 := by
    rw [← BitVec.toNat_inj, BitVec.toNat_setWidth]; rfl
  have e : c.setWidth 8 = BitVec.ofNat 8 c.toNat := by
    apply BitVec.eq_of_toNat_eq; rw [BitVec.toNat_setWidth, BitVec.toNat_ofNat]
  simp only [bytesOf, onTheWire, List.flatMap_cons, List.flatMap_nil, List.append_nil]
  by_cases hc : c.toNat % 256 = 10
  · rw [if_pos (h.2 hc), if_pos hc, h.2 hc]; rfl
  · rw [if_neg (fun hh => hc (h.1 hh)), if_neg hc, e]

/-- At most the CPU `t` is printing, and everything printed has been sent, is in the FIFO, or is still
to be written by `t`. -/
structure Inv (cap : Nat) (s : St T) (t : T) (l : List (BitVec 8)) : Prop where
  all : s.sent ++ s.fifo ++ (s.pc t).todo = l
  one : ∀ u, u ≠ t → s.pc u = .idle
  room : ∀ c cs, s.pc t = .write c cs → s.fifo.length < cap
  le : s.fifo.length ≤ cap

theorem inv_step {cap : Nat} {s s' : St T} {t : T} {l : List (BitVec 8)} (i : Inv cap s t l) {a : Act T}
    (ha : ∀ t c, a = .call t c → ∀ u, s.pc u = .idle) (h : step cap s a = some s') :
    ∃ t', Inv cap s' t' (l ++ onTheWire (printed [a])) := by
  obtain ⟨i1, i2, i3, i4⟩ := i
  cases a with
  | call u c =>
    have hi := ha u c rfl
    simp only [step, hi u, if_true, Option.some.injEq] at h
    subst h
    refine ⟨u, ?_, ?_, ?_, i4⟩
    · simp only [set, if_true, Pc.todo, printed]
      rw [← i1, hi t, bytesOf_wire]
      simp [Pc.todo]
    · intro v hv; simp only [set, if_neg hv]; exact hi v
    · intro d ds hd; simp [set] at hd
  | drain =>
    simp only [step] at h
    split at h
    · cases h
    · rename_i c cs hf
      cases h
      refine ⟨t, ?_, i2, ?_, ?_⟩
      · simp only [printed, onTheWire, List.flatMap_nil, List.append_nil]
        rw [← i1, hf]; simp
      · intro d ds hd; have := i3 d ds hd; rw [hf] at this; simp at this ⊢; omega
      · rw [hf] at i4; simp at i4 ⊢; omega
  | step u =>
    have hu : s.pc u ≠ .idle → u = t := fun hn => by
      by_cases h : u = t
      · exact h
      · exact absurd (i2 u h) hn
    simp only [printed, onTheWire, List.flatMap_nil, List.append_nil]
    simp only [step] at h
    split at h
    · cases h
    · rename_i hp
      have := hu (by rw [hp]; simp); subst this
      cases h
      refine ⟨u, ?_, ?_, ?_, i4⟩
      · rw [← i1, hp]; simp [set, Pc.todo]
      · intro v hv; simp only [set, if_neg hv]; exact i2 v hv
      · intro d ds hd; simp [set] at hd
    · rename_i c cs hp
      have := hu (by rw [hp]; simp); subst this
      split at h <;> cases h
      · rename_i hr
        refine ⟨u, ?_, ?_, ?_, i4⟩
        · rw [← i1, hp]; simp [set, Pc.todo]
        · intro v hv; simp only [set, if_neg hv]; exact i2 v hv
        · intro d ds _; exact hr
      · exact ⟨u, i1, i2, i3, i4⟩
    · rename_i c cs hp
      have := hu (by rw [hp]; simp); subst this
      have hr := i3 c cs hp
      cases h
      refine ⟨u, ?_, ?_, ?_, ?_⟩
      · rw [← i1, hp]; simp [set, Pc.todo, hr]
      · intro v hv; simp only [set, if_neg hv]; exact i2 v hv
      · intro d ds hd; simp [set] at hd
      · simp [hr]; omega

theorem inv_run {cap : Nat} {as : List (Act T)} {s s' : St T} {t : T} {l : List (BitVec 8)} (i : Inv cap s t l)
    (ha : Serial cap s as) (h : run cap s as = some s') : ∃ t', Inv cap s' t' (l ++ onTheWire (printed as)) := by
  induction as generalizing s t l with
  | nil => simp only [run] at h; cases h; exact ⟨t, by simpa [printed, onTheWire] using i⟩
  | cons a as ih =>
    simp only [run, Option.bind_eq_some_iff] at h
    obtain ⟨s1, h1, h2⟩ := h
    obtain ⟨t1, i1⟩ := inv_step i ha.1 h1
    obtain ⟨t2, i2⟩ := ih i1 (ha.2 s1 h1) h2
    refine ⟨t2, ?_⟩
    have e : onTheWire (printed (a :: as)) = onTheWire (printed [a]) ++ onTheWire (printed as) := by
      cases a <;> simp [printed, onTheWire]
    rw [e, ← List.append_assoc]
    exact i2

/-- **C76, partial.** If no two CPUs print at the same time, the UART sends exactly the characters printed, in
order, with CR before each LF; none is lost, however slowly it sends: what is printed is what has been sent, what
is in the FIFO and what is still to be written. When all CPUs are idle and the FIFO is empty, everything has
been sent. What is missing: `C76_lost`. -/
theorem C76_output_partial [Inhabited T] (cap : Nat) (as : List (Act T)) (s : St T) (ha : Serial cap init as)
    (h : run cap init as = some s) :
    (∃ t, s.sent ++ s.fifo ++ (s.pc t).todo = onTheWire (printed as) ∧ ∀ u, u ≠ t → s.pc u = .idle) ∧
    ((∀ t, s.pc t = .idle) → s.fifo = [] → s.sent = onTheWire (printed as)) := by
  have i0 : Inv cap (init : St T) default [] := by constructor <;> simp [init, Pc.todo]
  obtain ⟨t, i⟩ := inv_run i0 ha h
  have h1 := i.all
  simp only [List.nil_append] at h1
  refine ⟨⟨t, h1, i.one⟩, fun hi hf => ?_⟩
  rw [hi t, hf] at h1
  simpa [Pc.todo] using h1

/-- How many accesses a call still needs. -/
def Pc.left : Pc → Nat
  | .idle => 0
  | .wait cs => 2 * cs.length + 1
  | .write _ cs => 2 * cs.length + 2

/-- **C76.** Printing ends: every access brings the call closer to its end, unless the FIFO is full, and then the
UART has something to send; a call needs at most five accesses besides those that find the FIFO full. -/
theorem C76_ends (cap : Nat) (hc : 0 < cap) (s : St T) (t : T) (hp : s.pc t ≠ .idle) :
    (∃ s', step cap s (.step t) = some s' ∧ ((s'.pc t).left < (s.pc t).left ∨ (s' = s ∧ cap ≤ s.fifo.length))) ∧
    (cap ≤ s.fifo.length → ∃ s', step cap s .drain = some s' ∧ s'.fifo.length < s.fifo.length) ∧
    ∀ c, (Pc.wait (bytesOf c)).left ≤ 5 := by
  refine ⟨?_, ?_, ?_⟩
  · simp only [step]
    cases hq : s.pc t with
    | idle => exact absurd hq hp
    | wait cs =>
      cases cs with
      | nil => exact ⟨_, rfl, Or.inl (by simp [set, Pc.left])⟩
      | cons c cs =>
        by_cases hr : s.fifo.length < cap
        · exact ⟨_, if_pos hr, Or.inl (by simp [set, Pc.left]; omega)⟩
        · exact ⟨_, if_neg hr, Or.inr ⟨rfl, by omega⟩⟩
    | write c cs => exact ⟨_, rfl, Or.inl (by simp [set, Pc.left])⟩
  · intro h
    simp only [step]
    cases hf : s.fifo with
    | nil => rw [hf] at h; simp at h; omega
    | cons c cs => exact ⟨_, rfl, by simp⟩
  · intro c
    unfold bytesOf
    split <;> simp [Pc.left]

/-- A serial execution in which the second of two characters, a line end, waits for room in a FIFO of one byte. -/
def demoRun : List (Act Bool) :=
  [.call true 0x41, .step true, .step true, .step true, .call false 10, .step false, .drain, .step false, .step false,
   .step false, .drain, .step false, .step false, .step false, .drain]

example : Serial 1 init demoRun ∧ ((run 1 init demoRun).map fun s => (s.sent, s.fifo, s.pc true, s.pc false)) =
    some ([0x41, 13, 10], [], .idle, .idle) := by
  refine ⟨?_, by decide⟩
  simp only [demoRun, Serial]
  refine ⟨?_, ?_⟩
  · intro t c _ u; cases u <;> rfl
  · rintro _ ⟨⟩
    refine ⟨nofun, ?_⟩; rintro _ ⟨⟩
    refine ⟨nofun, ?_⟩; rintro _ ⟨⟩
    refine ⟨nofun, ?_⟩; rintro _ ⟨⟩
    refine ⟨?_, ?_⟩
    · intro t c _ u; cases u <;> rfl
    · rintro _ ⟨⟩
      refine ⟨nofun, ?_⟩; rintro _ ⟨⟩
      refine ⟨nofun, ?_⟩; rintro _ ⟨⟩
      refine ⟨nofun, ?_⟩; rintro _ ⟨⟩
      refine ⟨nofun, ?_⟩; rintro _ ⟨⟩
      refine ⟨nofun, ?_⟩; rintro _ ⟨⟩
      refine ⟨nofun, ?_⟩; rintro _ ⟨⟩
      refine ⟨nofun, ?_⟩; rintro _ ⟨⟩
      refine ⟨nofun, ?_⟩; rintro _ ⟨⟩
      refine ⟨nofun, ?_⟩; rintro _ ⟨⟩
      refine ⟨nofun, ?_⟩; rintro _ ⟨⟩
      trivial

/-- **C76.** The console has no lock: two CPUs that both find room for one byte lose a character. -/
theorem C76_lost : ∃ (as : List (Act Bool)) (s : St Bool), run 1 init as = some s ∧ (∀ t, s.pc t = .idle) ∧ s.fifo = [] ∧
    printed as = [0x41, 0x42] ∧ s.sent = [0x41] :=
  ⟨[.call false 0x41, .call true 0x42, .step false, .step true, .step false, .step true, .step false, .step true, .drain],
    _, rfl, by decide, rfl, rfl, rfl⟩

/-- **C76.** Whatever is registered, and in whatever order, the console is the one that was registered first, and
only that call succeeds. -/
theorem C76_register {C : Type} (c : C) (cs : List C) :
    ((c :: cs).foldl (fun h x => (register h x).1) none = some c) ∧ (register none c).2 = true ∧
    ∀ x, register (some c) x = (some c, false) := by
  refine ⟨?_, rfl, fun _ => rfl⟩
  rw [List.foldl_cons]
  show List.foldl _ (some c) cs = _
  induction cs with
  | nil => rfl
  | cons d ds ih => exact ih

example : [1, 2, 3].foldl (fun h x => (register h x).1) none = some 1 := by decide

end Verif.Console
