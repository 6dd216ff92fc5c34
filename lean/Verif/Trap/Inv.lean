import Verif.Trap.Model

/-!
# The invariant of a copy from or to the host
-/

namespace Verif.Trap

/-- Reads of consecutive words from `a` on. -/
def reads (a : Nat) : List W → List Ev
  | [] => []
  | v :: l => .rd a v :: reads (a + 8) l

/-- Writes to consecutive words from `a` on. -/
def writes (a : Nat) : List W → List Ev
  | [] => []
  | v :: l => .wr a v :: writes (a + 8) l

/-- Memory `f` with the words `l` stored from `a` on. -/
def put (a : Nat) (l : List W) (f : Nat → W) : Nat → W := fun x =>
  if a ≤ x ∧ (x - a) % 8 = 0 then (l[(x - a) / 8]?).getD (f x) else f x

/-- The parts of the code do not overlap, and addresses have 64 bits. -/
structure Lay.Ok (L : Lay) : Prop where
  apart : [(L.rd, 40), (L.wr, 40), (L.r0, 12), (L.vec, 152), (L.vbar, 8), (L.vbar + 0x200, 4)].Pairwise
    fun p q : Nat × Nat => p.1 + p.2 ≤ q.1 ∨ q.1 + q.2 ≤ p.1
  r0 : L.r0 < 2 ^ 64

/-- A call of `memcpy_ns_read(dst, src, 8 * n)` (`b`) or `memcpy_ns_write(dst, src, 8 * n)`. -/
structure Entry (L : Lay) (m : M) (b : Bool) (dst src n : Nat) : Prop where
  pc : m.pc = if b then L.rd else L.wr
  x0 : m.x 0 = BitVec.ofNat 64 dst
  x1 : m.x 1 = BitVec.ofNat 64 src
  x2 : m.x 2 = BitVec.ofNat 64 (8 * n)
  dst8 : dst % 8 = 0
  src8 : src % 8 = 0
  dstLt : dst + 8 * n < 2 ^ 64
  srcLt : src + 8 * n < 2 ^ 64
  /-- RMM uses SP_EL2, and the exception stack has room -/
  selX : m.selX = true
  sp8 : m.sp0 % 8 = 0
  room : L.ehLo + 256 ≤ m.sp0
  eh : ∀ a, L.ehLo ≤ a → a < m.sp0 → L.ns a = false
  /-- one buffer is the host's, the other RMM's, and not part of the exception stack -/
  far : ∀ i < n, L.ns ((if b then src else dst) + 8 * i) = true
  near : ∀ i < n, L.ns ((if b then dst else src) + 8 * i) = false ∧
    ((if b then dst else src) + 8 * i < L.ehLo ∨ m.sp0 ≤ (if b then dst else src) + 8 * i)
  /-- the caller's code is elsewhere -/
  ret : code L (m.x 30).toNat = none

/-! ## Lists of events and stores -/

theorem reads_append (a : Nat) (l : List W) (v : W) :
    reads a (l ++ [v]) = reads a l ++ [.rd (a + 8 * l.length) v] := by
  induction l generalizing a with
  | nil => simp [reads]
  | cons x l ih =>
    simp only [List.cons_append, reads, ih, List.length_cons]
    rw [show a + 8 + 8 * l.length = a + 8 * (l.length + 1) by omega]

theorem writes_append (a : Nat) (l : List W) (v : W) :
    writes a (l ++ [v]) = writes a l ++ [.wr (a + 8 * l.length) v] := by
  induction l generalizing a with
  | nil => simp [writes]
  | cons x l ih =>
    simp only [List.cons_append, writes, ih, List.length_cons]
    rw [show a + 8 + 8 * l.length = a + 8 * (l.length + 1) by omega]

theorem put_append (a : Nat) (l : List W) (v : W) (f : Nat → W) :
    put a (l ++ [v]) f = upd (put a l f) (a + 8 * l.length) v := by
  funext x
  unfold put upd
  dsimp only
  by_cases h : a ≤ x ∧ (x - a) % 8 = 0
  · rw [if_pos h, if_pos h]
    by_cases hx : x = a + 8 * l.length
    · rw [if_pos hx, hx]
      rw [show (a + 8 * l.length - a) / 8 = l.length by omega]
      simp
    · rw [if_neg hx]
      by_cases hl : (x - a) / 8 < l.length
      · rw [List.getElem?_append_left hl]
      · rw [List.getElem?_eq_none (by simp; omega), List.getElem?_eq_none (by omega)]
  · rw [if_neg h, if_neg h, if_neg (by rintro rfl; apply h; omega)]

theorem put_nil (a : Nat) (f : Nat → W) : put a [] f = f := by
  funext x; simp [put]

/-! ## Code -/

theorem fetch_in (a : Nat) (l : List I) (i : Nat) : fetch a l (a + 4 * i) = l[i]? := by
  unfold fetch
  rw [if_pos (by omega), show (a + 4 * i - a) / 4 = i by omega]

theorem fetch_out {a pc : Nat} {l : List I} (h : pc < a ∨ a + 4 * l.length ≤ pc) : fetch a l pc = none := by
  unfold fetch
  split
  · exact List.getElem?_eq_none (by omega)
  · rfl

section
variable {L : Lay}

theorem Lay.Ok.dis (h : L.Ok) :
    (L.rd + 40 ≤ L.wr ∨ L.wr + 40 ≤ L.rd) ∧ (L.rd + 40 ≤ L.r0 ∨ L.r0 + 12 ≤ L.rd) ∧
    (L.rd + 40 ≤ L.vec ∨ L.vec + 152 ≤ L.rd) ∧ (L.rd + 40 ≤ L.vbar ∨ L.vbar + 8 ≤ L.rd) ∧
    (L.rd + 40 ≤ L.vbar + 0x200 ∨ L.vbar + 0x200 + 4 ≤ L.rd) ∧
    (L.wr + 40 ≤ L.r0 ∨ L.r0 + 12 ≤ L.wr) ∧ (L.wr + 40 ≤ L.vec ∨ L.vec + 152 ≤ L.wr) ∧
    (L.wr + 40 ≤ L.vbar ∨ L.vbar + 8 ≤ L.wr) ∧ (L.wr + 40 ≤ L.vbar + 0x200 ∨ L.vbar + 0x200 + 4 ≤ L.wr) ∧
    (L.r0 + 12 ≤ L.vec ∨ L.vec + 152 ≤ L.r0) ∧ (L.r0 + 12 ≤ L.vbar ∨ L.vbar + 8 ≤ L.r0) ∧
    (L.r0 + 12 ≤ L.vbar + 0x200 ∨ L.vbar + 0x200 + 4 ≤ L.r0) ∧
    (L.vec + 152 ≤ L.vbar ∨ L.vbar + 8 ≤ L.vec) ∧ (L.vec + 152 ≤ L.vbar + 0x200 ∨ L.vbar + 0x200 + 4 ≤ L.vec) := by
  have := h.apart
  simp only [List.pairwise_cons, List.mem_cons, forall_eq_or_imp, List.not_mem_nil, false_imp_iff,
    implies_true, and_true] at this
  obtain ⟨⟨a1, a2, a3, a4, a5⟩, ⟨b1, b2, b3, b4⟩, ⟨c1, c2, c3⟩, ⟨d1, d2⟩, _⟩ := this
  exact ⟨a1, a2, a3, a4, a5, b1, b2, b3, b4, c1, c2, c3, d1, d2⟩

theorem code_copy (h : L.Ok) (b : Bool) {i : Nat} (hi : i < 10) :
    code L ((if b then L.rd else L.wr) + 4 * i) = copy[i]? := by
  have d := h.dis
  have hs : copy[i]?.isSome := by simp [copy]; omega
  obtain ⟨y, hy⟩ := Option.isSome_iff_exists.mp hs
  unfold code
  cases b
  · simp only [Bool.false_eq_true, if_false]
    rw [fetch_out (a := L.rd) (by simp [copy]; omega), fetch_in, hy]
    rfl
  · simp only [if_true]
    rw [fetch_in, hy]
    rfl

theorem code_ret0 (h : L.Ok) {i : Nat} (hi : i < 3) : code L (L.r0 + 4 * i) = ret0[i]? := by
  have d := h.dis
  have hs : ret0[i]?.isSome := by simp [ret0]; omega
  obtain ⟨y, hy⟩ := Option.isSome_iff_exists.mp hs
  unfold code
  rw [fetch_out (a := L.rd) (by simp [copy]; omega), fetch_out (a := L.wr) (by simp [copy]; omega), fetch_in, hy]
  rfl

theorem code_trap (h : L.Ok) {i : Nat} (hi : i < 38) : code L (L.vec + 4 * i) = trap[i]? := by
  have d := h.dis
  have hs : trap[i]?.isSome := by simp [trap, enter, leave]; omega
  obtain ⟨y, hy⟩ := Option.isSome_iff_exists.mp hs
  unfold code
  rw [fetch_out (a := L.rd) (by simp [copy]; omega), fetch_out (a := L.wr) (by simp [copy]; omega),
    fetch_out (a := L.r0) (by simp [ret0]; omega), fetch_in, hy]
  rfl

theorem code_vec (h : L.Ok) : code L (L.vbar + 0x200) = some (.b L.vec) := by
  have d := h.dis
  unfold code
  rw [fetch_out (a := L.rd) (by simp [copy]; omega), fetch_out (a := L.wr) (by simp [copy]; omega),
    fetch_out (a := L.r0) (by simp [ret0]; omega), fetch_out (a := L.vec) (by simp [trap, enter, leave]; omega),
    fetch_out (a := L.vbar) (by simp), show L.vbar + 0x200 = L.vbar + 0x200 + 4 * 0 from rfl, fetch_in]
  rfl

theorem cpu_inv {m m' : M} {i : I} (hc : code L m.pc = some i) (hi : i ≠ .call) (h : Cpu L m (some m')) :
    (faults L m i = false ∧ m' = sem L m i) ∨ (faults L m i = true ∧ ∃ e, Gpf e ∧ m' = take L m e) := by
  cases h with
  | run h1 h2 h3 => rw [hc] at h1; cases h1; exact .inl ⟨h3, rfl⟩
  | @fault _ e h1 h2 h3 h4 => rw [hc] at h1; cases h1; exact .inr ⟨h3, _, h4, rfl⟩
  | call h1 => rw [hc] at h1; cases h1; exact absurd rfl hi

theorem cpu_plain {m m' : M} {i : I} (hc : code L m.pc = some i) (hi : i ≠ .call)
    (ht : ∀ a ∈ touch m i, L.ns a = false) (h : Cpu L m (some m')) : m' = sem L m i := by
  rcases cpu_inv hc hi h with ⟨_, h⟩ | ⟨h1, _⟩
  · exact h
  · exfalso
    unfold faults at h1
    simp only [Bool.and_eq_true, List.any_eq_true] at h1
    obtain ⟨_, a, ha, hn⟩ := h1
    rw [ht a ha] at hn
    cases hn

end

/-! ## The invariant -/

/-- A call. -/
structure C where
  L : Lay
  m : M
  b : Bool
  dst : Nat
  src : Nat
  n : Nat

def C.base (c : C) : Nat := if c.b then c.L.rd else c.L.wr

/-- What holds from the call to the return, when the words `vs` have been loaded and `ws` stored. -/
structure Cm (c : C) (m : M) (vs ws : List W) : Prop where
  spx : m.spx = c.m.spx
  log : m.log = c.m.log ++ if c.b then reads c.src vs else writes c.dst ws
  mem : ∀ a, c.L.ns a = false → (a < c.L.ehLo ∨ c.m.sp0 ≤ a) → m.mem a = put c.dst ws c.m.mem a
  src : c.b = false → ∀ i (h : i < vs.length), vs[i] = c.m.mem (c.src + 8 * i)

/-- What holds while RMM runs on its own stack. -/
structure Nm (c : C) (m : M) (vs ws : List W) : Prop extends Cm c m vs ws where
  sp0 : m.sp0 = c.m.sp0
  selX : m.selX = true
  xs : ∀ n, 5 ≤ n → n ≤ 30 → m.x n = c.m.x n

/-- Loaded and stored words when no word is on its way. -/
structure Q (c : C) (vs ws : List W) : Prop where
  le : vs.length ≤ c.n
  rd : c.b = true → vs = ws
  wr : c.b = false → ws <+: vs

/-- What holds while it handles an exception; `X` are the registers at the exception. -/
structure Tm (c : C) (m : M) (vs ws : List W) (X : Nat → W) : Prop extends Cm c m vs ws where
  q : Q c vs ws
  spsrSel : m.spsrSel = true
  X : ∀ n, 5 ≤ n → n ≤ 30 → X n = c.m.x n

/-- Pairs of registers that `el2_sync_cel` saves, in the order in which it does. -/
def pairs : List (G × G) := [(.x 29, .x 30), (.x 27, .x 28), (.x 25, .x 26), (.x 23, .x 24), (.x 21, .x 22),
  (.x 19, .x 20), (.x 17, .x 18), (.x 15, .x 16), (.x 13, .x 14), (.x 11, .x 12), (.x 9, .x 10), (.x 7, .x 8),
  (.x 5, .x 6), (.x 3, .x 4), (.x 1, .x 2), (.xzr, .x 0)]

def val (X : Nat → W) : G → W
  | .x n => X n
  | .xzr => 0

/-- The first `k` pairs are on the stack that starts at `sp`. -/
def Saved (X : Nat → W) (mem : Nat → W) (sp k : Nat) : Prop :=
  ∀ i < k, ∀ p, pairs[i]? = some p → mem (sp - 16 * (i + 1)) = val X p.1 ∧ mem (sp - 16 * (i + 1) + 8) = val X p.2

/-- The registers of the last `k` pairs are back. -/
def Back (X x : Nat → W) (k : Nat) : Prop :=
  ∀ i, 16 - k ≤ i → ∀ p, pairs[i]? = some p → ∀ n, (p.1 = .x n ∨ p.2 = .x n) → x n = X n

/-- The states between call and return, by the place in the code, with a bound on the number of
instructions left. -/
inductive Inv (c : C) : Nat → M → Prop where
  | p0 {m} (i : Nat) : i ≤ 2 → m.pc = c.base + 4 * i → Nm c m [] [] → (i = 2 → c.n ≠ 0) →
      m.x 0 = BitVec.ofNat 64 c.dst → m.x 1 = BitVec.ofNat 64 c.src → m.x 2 = BitVec.ofNat 64 (8 * c.n) →
      Inv c (5 * c.n + 70 - i) m
  | p3 {m} (vs : List W) : m.pc = c.base + 12 → Nm c m vs vs → vs.length < c.n →
      m.x 0 = BitVec.ofNat 64 (c.dst + 8 * vs.length) → m.x 1 = BitVec.ofNat 64 (c.src + 8 * vs.length) →
      m.x 2 = BitVec.ofNat 64 (8 * c.n) → m.x 3 = BitVec.ofNat 64 (8 * vs.length) →
      Inv c (5 * (c.n - vs.length) + 65) m
  | p4 {m} (vs : List W) (v : W) : m.pc = c.base + 16 → Nm c m (vs ++ [v]) vs → vs.length < c.n →
      m.x 0 = BitVec.ofNat 64 (c.dst + 8 * vs.length) → m.x 1 = BitVec.ofNat 64 (c.src + 8 * (vs.length + 1)) →
      m.x 2 = BitVec.ofNat 64 (8 * c.n) → m.x 3 = BitVec.ofNat 64 (8 * vs.length) → m.x 4 = v →
      Inv c (5 * (c.n - vs.length) + 64) m
  | p5 {m} (i k : Nat) (vs : List W) : vs.length = k + 1 → i ≤ 2 → m.pc = c.base + 4 * (5 + i) → Nm c m vs vs → k < c.n →
      m.x 0 = BitVec.ofNat 64 (c.dst + 8 * (k + 1)) → m.x 1 = BitVec.ofNat 64 (c.src + 8 * (k + 1)) →
      m.x 2 = BitVec.ofNat 64 (8 * c.n) →
      m.x 3 = BitVec.ofNat 64 (if i = 0 then 8 * k else 8 * (k + 1)) →
      (i = 2 → m.z = decide (k + 1 = c.n)) →
      Inv c (5 * (c.n - k) + 63 - i) m
  | p8 {m} (i : Nat) (vs : List W) : i ≤ 1 → m.pc = c.base + 4 * (8 + i) → Nm c m vs vs → vs.length = c.n →
      (i = 1 → m.x 0 = 1) → Inv c (60 - i) m
  | done {m} (r : Bool) (vs ws : List W) : m.pc = (c.m.x 30).toNat → Nm c m vs ws → Q c vs ws →
      (r = true → ws.length = c.n) →
      m.x 0 = (if r then 1 else 0) → Inv c 0 m
  | t0 {m} (vs ws : List W) (X : Nat → W) : m.pc = c.L.vbar + 0x200 → Tm c m vs ws X → handle c.L m.esr m.elr = some c.L.r0 →
      m.sp0 = c.m.sp0 → m.selX = true → (∀ n ≤ 30, m.x n = X n) → Inv c 58 m
  | t1 {m} (vs ws : List W) (X : Nat → W) : m.pc = c.L.vec → Tm c m vs ws X → handle c.L m.esr m.elr = some c.L.r0 →
      m.sp0 = c.m.sp0 → m.selX = true → (∀ n ≤ 30, m.x n = X n) → Inv c 57 m
  | t2 {m} (k : Nat) (vs ws : List W) (X : Nat → W) : k ≤ 16 → m.pc = c.L.vec + 4 * (k + 1) → Tm c m vs ws X →
      handle c.L m.esr m.elr = some c.L.r0 →
      m.sp0 = c.m.sp0 - 16 * k → m.selX = false → (∀ n ≤ 30, m.x n = X n) → Saved X m.mem c.m.sp0 k → Inv c (56 - k) m
  | t3 {m} (vs ws : List W) (X : Nat → W) : m.pc = c.L.vec + 4 * 18 → Tm c m vs ws X →
      handle c.L m.esr m.elr = some c.L.r0 →
      m.sp0 = c.m.sp0 - 256 → m.selX = false → Saved X m.mem c.m.sp0 16 → Inv c 39 m
  | t4 {m} (vs ws : List W) (X : Nat → W) : m.pc = c.L.vec + 4 * 19 → Tm c m vs ws X →
      m.x 0 = BitVec.ofNat 64 c.L.r0 →
      m.sp0 = c.m.sp0 - 256 → m.selX = false → Saved X m.mem c.m.sp0 16 → Inv c 38 m
  | t5 {m} (k : Nat) (vs ws : List W) (X : Nat → W) : k ≤ 16 → m.pc = c.L.vec + 4 * (20 + k) → Tm c m vs ws X →
      m.elr = c.L.r0 →
      m.sp0 = c.m.sp0 - 256 + 16 * k → m.selX = false → Saved X m.mem c.m.sp0 16 → Back X m.x k → Inv c (37 - k) m
  | t6 {m} (vs ws : List W) (X : Nat → W) : m.pc = c.L.vec + 4 * 37 → Tm c m vs ws X →
      m.elr = c.L.r0 → m.sp0 = c.m.sp0 → Back X m.x 16 → Inv c 20 m
  | r {m} (i : Nat) (vs ws : List W) : i ≤ 2 → m.pc = c.L.r0 + 4 * i → Nm c m vs ws → Q c vs ws → (i = 2 → m.x 0 = 0) → Inv c (19 - i) m

end Verif.Trap
