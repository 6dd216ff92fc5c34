import Verif.Trap.Model

/-!
# C77: what a fatal exception prints

The register dump of `el2_sync_cel` and `fatal_abort` (vectors.S:71-103, handler.c:418-468) and the backtrace
(lib/debug/src/backtrace.c).
-/

namespace Verif.Crash

open Verif.Trap

/-! ## The registers -/

/-- The pairs that are pushed, from `stp x29, x30` to `stp xzr, x0`: part of `enter`. -/
def pushes (l : List (G × G)) : List I := l.map fun p => .push p.1 p.2

/-- What a list of pushes on SP_EL0 does: sp0, memory, and what it leaves alone. -/
theorem pushes_spec (L : Lay) (l : List (G × G)) (m : M) (hs : m.selX = false) (hr : 16 * l.length ≤ m.sp0) :
    let e := (pushes l).foldl (sem L) m
    e.selX = false ∧ e.sp0 = m.sp0 - 16 * l.length ∧ e.x = m.x ∧ e.spx = m.spx ∧ e.elr = m.elr ∧ e.esr = m.esr ∧
    (∀ a, a < m.sp0 - 16 * l.length ∨ m.sp0 ≤ a → e.mem a = m.mem a) ∧
    ∀ i p, l[i]? = some p → e.mem (m.sp0 - 16 * (i + 1)) = m.get p.1 ∧ e.mem (m.sp0 - 16 * (i + 1) + 8) = m.get p.2 := by
  induction l generalizing m with
  | nil => simp [pushes, hs]
  | cons q l ih =>
    simp only [List.length_cons] at hr
    have hp : (pushes (q :: l)).foldl (sem L) m = (pushes l).foldl (sem L) (sem L m (.push q.1 q.2)) := rfl
    have h1 : sem L m (.push q.1 q.2) = { m with
        sp0 := m.sp0 - 16, mem := upd (upd m.mem (m.sp0 - 16) (m.get q.1)) (m.sp0 - 8) (m.get q.2), pc := m.pc + 4 } := by
      simp [sem, M.setSp, M.sp, hs]
    rw [hp, h1]
    obtain ⟨a1, a2, a3, a4, a5, a6, a7, a8⟩ := ih { m with
        sp0 := m.sp0 - 16, mem := upd (upd m.mem (m.sp0 - 16) (m.get q.1)) (m.sp0 - 8) (m.get q.2), pc := m.pc + 4 } hs
        (by show _ ≤ m.sp0 - 16; omega)
    dsimp only at a2 a3 a4 a5 a6 a7 a8
    refine ⟨a1, by rw [a2, List.length_cons]; omega, a3, a4, a5, a6, ?_, ?_⟩
    · intro a ha
      rw [List.length_cons] at ha
      rw [a7 a (by omega)]
      simp only [upd]
      rw [if_neg (by omega), if_neg (by omega)]
    · intro i p hi
      cases i with
      | zero =>
        simp only [List.getElem?_cons_zero, Option.some.injEq] at hi
        subst hi
        rw [a7 _ (by omega), a7 _ (by omega)]
        have n1 : ¬ m.sp0 - 16 * (0 + 1) = m.sp0 - 8 := by omega
        have n2 : m.sp0 - 16 * (0 + 1) = m.sp0 - 16 := by omega
        have n3 : m.sp0 - 16 * (0 + 1) + 8 = m.sp0 - 8 := by omega
        rw [n3, n2]
        rw [n2] at n1
        simp only [upd, if_neg n1, if_true, and_self]
      | succ i =>
        rw [List.getElem?_cons_succ] at hi
        obtain ⟨b1, b2⟩ := a8 i p hi
        have e : m.sp0 - 16 - 16 * (i + 1) = m.sp0 - 16 * (i + 1 + 1) := by omega
        rw [e] at b1 b2
        refine ⟨b1.trans ?_, b2.trans ?_⟩ <;> · rcases p with ⟨_ | _, _ | _⟩ <;> rfl

/-- The pairs of `enter`. -/
def saved : List (G × G) := [(.x 29, .x 30), (.x 27, .x 28), (.x 25, .x 26), (.x 23, .x 24), (.x 21, .x 22),
  (.x 19, .x 20), (.x 17, .x 18), (.x 15, .x 16), (.x 13, .x 14), (.x 11, .x 12), (.x 9, .x 10), (.x 7, .x 8),
  (.x 5, .x 6), (.x 3, .x 4), (.x 1, .x 2), (.xzr, .x 0)]

theorem enter_eq : enter = .msrSpsel false :: (pushes saved ++ [.addSp 0 8]) := by decide

/-- **C77.** `handle_rmm_trap` gets a `dump_regs_t` (handler.c:422-425) that holds the registers of the interrupted
code: x[0] to x[29] at offsets 0 to 232, then the link register at 240; the 248 bytes end where the exception
stack was, which is the SP_EL0 that is printed (handler.c:430); the stack of the interrupted code, the syndrome and
the return address are as they were, and so is all memory other than the top 256 bytes of the exception stack. -/
theorem C77_dump (L : Lay) (m : M) (hr : 256 ≤ m.sp0) (hlt : m.sp0 < 2 ^ 64) :
    let e := enter.foldl (sem L) m
    let regs := (e.x 0).toNat
    (∀ n ≤ 30, e.mem (regs + 8 * n) = m.x n) ∧ regs + 31 * 8 = m.sp0 ∧ e.sp = e.sp0 ∧ e.spx = m.spx ∧ e.esr = m.esr ∧
    e.elr = m.elr ∧ (∀ n, 1 ≤ n → e.x n = m.x n) ∧ ∀ a, a < m.sp0 - 256 ∨ m.sp0 ≤ a → e.mem a = m.mem a := by
  intro e regs
  have hE : e = sem L ((pushes saved).foldl (sem L) { m with selX := false, pc := m.pc + 4 }) (.addSp 0 8) := by
    show enter.foldl (sem L) m = _
    rw [enter_eq, List.foldl_cons, List.foldl_append]
    rfl
  obtain ⟨a1, a2, a3, a4, a5, a6, a7, a8⟩ := pushes_spec L saved { m with selX := false, pc := m.pc + 4 } rfl hr
  generalize hf : (pushes saved).foldl (sem L) { m with selX := false, pc := m.pc + 4 } = f at *
  dsimp only at a2 a3 a4 a5 a6 a7 a8
  have hlen : 16 * saved.length = 256 := rfl
  rw [hlen] at a2 a7
  have hsp : f.sp = m.sp0 - 256 := by rw [M.sp, a1]; simpa using a2
  have hregs : regs = m.sp0 - 248 := by
    show (e.x 0).toNat = _
    rw [hE]
    simp only [sem, upd, if_true, hsp, BitVec.toNat_ofNat]
    omega
  have hmem : e.mem = f.mem := by rw [hE]; rfl
  refine ⟨?_, by omega, ?_, by rw [hE]; exact a4, by rw [hE]; exact a6, by rw [hE]; exact a5, ?_, ?_⟩
  · intro n hn
    rw [hmem, hregs]
    obtain ⟨i, hi⟩ : ∃ i, n = 2 * i ∨ n = 2 * i + 1 := ⟨n / 2, by omega⟩
    have hx : ∀ i ≤ 15, saved[15 - i]? = some ((if i = 0 then G.xzr else .x (2 * i - 1)), .x (2 * i)) := by decide
    rcases hi with rfl | rfl
    · have := (a8 _ _ (hx i (by omega))).2
      have e1 : m.sp0 - 16 * (15 - i + 1) + 8 = m.sp0 - 248 + 8 * (2 * i) := by omega
      rw [e1] at this
      exact this
    · have h1 := hx (i + 1) (by omega)
      rw [if_neg (by omega)] at h1
      have := (a8 _ _ h1).1
      have e1 : m.sp0 - 16 * (15 - (i + 1) + 1) = m.sp0 - 248 + 8 * (2 * i + 1) := by omega
      have e2 : 2 * (i + 1) - 1 = 2 * i + 1 := by omega
      rw [e1, e2] at this
      exact this
  · rw [M.sp, hE]; simp [sem, a1]
  · intro n hn
    rw [hE]
    simp only [sem, upd]
    rw [if_neg (by omega), a3]
  · intro a ha
    rw [hmem, a7 a ha]

/-- A stack that meets the hypotheses. -/
example : 256 ≤ 0x2000 ∧ 0x2000 < 2 ^ 64 := by decide

/-! ## The backtrace -/

/-- What the unwinder sees: `readable`: `ats1e2r` does not fail for the address (backtrace.c:41-48; tables do not
change while it runs); `word`: the memory; `strip`: `xpaci` (backtrace.c:27-36), any function. -/
structure Sees where
  readable : BitVec 64 → Bool
  word : BitVec 64 → BitVec 64
  strip : BitVec 64 → BitVec 64

/-- What the unwinder does. -/
inductive Ev where
  /-- an eight-byte load -/
  | load (a : BitVec 64)
  /-- "Corrupted frame pointer" -/
  | corrupted (fr : BitVec 64)
  /-- one line of the backtrace -/
  | site (a : BitVec 64)
  /-- "Max backtrace depth reached" -/
  | max
  deriving DecidableEq

/-- `is_valid_object`, backtrace.c:54-74. -/
def validObject (e : Sees) (addr size : BitVec 64) : Bool :=
  if addr = 0 ∨ addr + size < addr then false
  else if addr &&& (8 - 1) ≠ 0 then false
  else (List.range size.toNat).all fun i => e.readable (addr + BitVec.ofNat 64 i)

/-- `is_valid_jump_address`, backtrace.c:80-88. -/
def validJump (e : Sees) (addr : BitVec 64) : Bool :=
  if addr = 0 ∨ addr &&& (4 - 1) ≠ 0 then false else e.readable addr

/-- `is_valid_frame_record`, backtrace.c:93-96: the record is two words (backtrace.c:20-25). -/
def validRecord (e : Sees) (fr : BitVec 64) : Bool := validObject e fr 16

/-- The loop of `unwind_stack`, backtrace.c:110-136, with `n` iterations left. -/
def loop (e : Sees) : Nat → BitVec 64 → List Ev
  | 0, _ => [.max]
  | n + 1, fr =>
    if validRecord e fr = false then []
    else
      let site := e.strip (e.word (fr + 8)) - 4
      if validJump e site = false then [.load (fr + 8)]
      else [.load (fr + 8), .site site, .load fr] ++ loop e n (e.word fr)

/-- `unwind_stack`, backtrace.c:98-137: UNWIND_LIMIT is 20. -/
def unwind (e : Sees) (fr : BitVec 64) : List Ev :=
  if validRecord e fr = false then [.corrupted fr] else loop e 20 fr

/-! ### The specification -/

/-- Record number `n` of the list that starts at `fr`. -/
def frameAt (e : Sees) (fr : BitVec 64) : Nat → BitVec 64
  | 0 => fr
  | n + 1 => e.word (frameAt e fr n)

/-- The instruction before the one that the record says to return to. -/
def siteOf (e : Sees) (fr : BitVec 64) : BitVec 64 := e.strip (e.word (fr + 8)) - 4

/-- All 16 bytes of the record can be read, and it is aligned. -/
def Readable (e : Sees) (a : BitVec 64) (n : Nat) : Prop :=
  a.toNat % 8 = 0 ∧ a.toNat + n < 2 ^ 64 ∧ ∀ i < n, e.readable (BitVec.ofNat 64 (a.toNat + i)) = true

def GoodRecord (e : Sees) (fr : BitVec 64) : Prop := fr ≠ 0 ∧ Readable e fr 16

def GoodSite (e : Sees) (a : BitVec 64) : Prop := a ≠ 0 ∧ a.toNat % 4 = 0 ∧ e.readable a = true

def Good (e : Sees) (fr : BitVec 64) : Prop := GoodRecord e fr ∧ GoodSite e (siteOf e fr)

/-- The lines printed. -/
def sites : List Ev → List (BitVec 64)
  | [] => []
  | .site a :: l => a :: sites l
  | _ :: l => sites l

theorem validRecord_iff (e : Sees) (fr : BitVec 64) : validRecord e fr = true ↔ GoodRecord e fr := by
  have h16 : (16 : BitVec 64).toNat = 16 := rfl
  have ha : fr &&& (8 - 1) = 0 ↔ fr.toNat % 8 = 0 := by
    rw [← BitVec.toNat_inj, BitVec.toNat_and]
    show fr.toNat &&& (2 ^ 3 - 1) = 0 ↔ _
    rw [Nat.and_two_pow_sub_one_eq_mod]
  have hw : fr + 16 < fr ↔ 2 ^ 64 ≤ fr.toNat + 16 := by
    rw [BitVec.lt_def, BitVec.toNat_add, h16]
    have := fr.isLt
    omega
  have hb : ∀ i, fr + BitVec.ofNat 64 i = BitVec.ofNat 64 (fr.toNat + i) := by
    intro i
    apply BitVec.eq_of_toNat_eq
    simp only [BitVec.toNat_add, BitVec.toNat_ofNat]
    omega
  unfold validRecord validObject GoodRecord Readable
  rw [h16]
  by_cases h0 : fr = 0
  · rw [if_pos (.inl h0)]; simp [h0]
  · by_cases h1 : fr + 16 < fr
    · rw [if_pos (.inr h1)]
      have := hw.1 h1
      exact ⟨fun h => (by cases h), fun h => absurd h.2.2.1 (by omega)⟩
    · rw [if_neg (fun h => h.elim h0 h1)]
      have h1' : fr.toNat + 16 < 2 ^ 64 := by
        have := mt hw.2 h1
        omega
      by_cases h2 : fr &&& (8 - 1) = 0
      · rw [if_neg (fun h => h h2)]
        simp only [List.all_eq_true, List.mem_range, hb]
        exact ⟨fun h => ⟨h0, ha.1 h2, h1', h⟩, fun h => h.2.2.2⟩
      · rw [if_pos h2]
        exact ⟨fun h => (by cases h), fun h => absurd (ha.2 h.2.1) h2⟩

theorem validJump_iff (e : Sees) (a : BitVec 64) : validJump e a = true ↔ GoodSite e a := by
  have ha : a &&& (4 - 1) = 0 ↔ a.toNat % 4 = 0 := by
    rw [← BitVec.toNat_inj, BitVec.toNat_and]
    show a.toNat &&& (2 ^ 2 - 1) = 0 ↔ _
    rw [Nat.and_two_pow_sub_one_eq_mod]
  unfold validJump GoodSite
  by_cases h0 : a = 0
  · rw [if_pos (.inl h0)]; simp [h0]
  · by_cases h1 : a &&& (4 - 1) = 0
    · rw [if_neg (fun h => h.elim h0 (fun h => h h1))]
      exact ⟨fun h => ⟨h0, ha.1 h1, h⟩, fun h => h.2.2⟩
    · rw [if_pos (.inr h1)]
      exact ⟨fun h => (by cases h), fun h => absurd (ha.2 h.2.1) h1⟩

/-- The loop, from any record. -/
theorem loop_spec (e : Sees) (n : Nat) (fr : BitVec 64) :
    (∃ k ≤ n, sites (loop e n fr) = (List.range k).map (fun i => siteOf e (frameAt e fr i)) ∧
      (∀ i < k, Good e (frameAt e fr i)) ∧ (k < n → ¬ Good e (frameAt e fr k)) ∧ (Ev.max ∈ loop e n fr ↔ k = n)) ∧
    (∀ a, Ev.load a ∈ loop e n fr → Readable e a 8) ∧ ∀ a, Ev.corrupted a ∉ loop e n fr := by
  induction n generalizing fr with
  | zero =>
    refine ⟨⟨0, by omega, rfl, by omega, by omega, by simp [loop]⟩, ?_, ?_⟩ <;> simp [loop]
  | succ n ih =>
    by_cases h1 : validRecord e fr = true
    · obtain ⟨g0, g1, g2, g3⟩ := (validRecord_iff e fr).1 h1
      have hl8 : Readable e (fr + 8) 8 := by
        have h8 : (fr + 8).toNat = fr.toNat + 8 := by
          rw [BitVec.toNat_add]
          show (fr.toNat + 8) % 2 ^ 64 = _
          omega
        refine ⟨by omega, by omega, fun i hi => ?_⟩
        have := g3 (8 + i) (by omega)
        rw [h8]
        have e1 : fr.toNat + 8 + i = fr.toNat + (8 + i) := by omega
        rw [e1]
        exact this
      have hl0 : Readable e fr 8 := ⟨g1, by omega, fun i hi => g3 i (by omega)⟩
      by_cases h2 : validJump e (siteOf e fr) = true
      · have hg : Good e fr := ⟨(validRecord_iff e fr).1 h1, (validJump_iff e _).1 h2⟩
        have hl : loop e (n + 1) fr = [.load (fr + 8), .site (siteOf e fr), .load fr] ++ loop e n (e.word fr) := by
          rw [loop, if_neg (by simp [h1])]
          show (if validJump e (siteOf e fr) = false then _ else _) = _
          rw [if_neg (by simp [h2])]
          rfl
        obtain ⟨⟨k, hk, i1, i2, i3, i4⟩, i5, i6⟩ := ih (e.word fr)
        have hf : ∀ i, frameAt e (e.word fr) i = frameAt e fr (i + 1) := by
          intro i
          induction i with
          | zero => rfl
          | succ i ih' => rw [frameAt, ih']; rfl
        rw [hl]
        refine ⟨⟨k + 1, by omega, ?_, ?_, ?_, ?_⟩, ?_, ?_⟩
        · show siteOf e fr :: sites (loop e n (e.word fr)) = _
          rw [i1, List.range_succ_eq_map, List.map_cons, List.map_map]
          congr 1
          apply List.map_congr_left
          intro i _
          simp only [Function.comp, hf]
        · intro i hi
          cases i with
          | zero => exact hg
          | succ i => rw [← hf]; exact i2 i (by omega)
        · intro hkn; rw [← hf]; exact i3 (by omega)
        · simp [i4]
        · intro a ha
          simp only [List.mem_append, List.mem_cons, Ev.load.injEq, reduceCtorEq, List.not_mem_nil, or_false, false_or] at ha
          rcases ha with (rfl | rfl) | ha
          · exact hl8
          · exact hl0
          · exact i5 a ha
        · intro a ha
          simp only [List.mem_append, List.mem_cons, reduceCtorEq, List.not_mem_nil, or_false, false_or] at ha
          exact i6 a ha
      · have hl : loop e (n + 1) fr = [.load (fr + 8)] := by
          rw [loop, if_neg (by simp [h1])]
          show (if validJump e (siteOf e fr) = false then _ else _) = _
          rw [if_pos (by simpa using h2)]
        rw [hl]
        refine ⟨⟨0, by omega, rfl, by omega, fun _ hg => h2 ((validJump_iff e _).2 hg.2), by simp⟩, ?_, by simp⟩
        intro a ha
        simp only [List.mem_cons, Ev.load.injEq, List.not_mem_nil, or_false] at ha
        subst ha
        exact hl8
    · have hl : loop e (n + 1) fr = [] := by rw [loop, if_pos (by simpa using h1)]
      rw [hl]
      exact ⟨⟨0, by omega, rfl, by omega, fun _ hg => h1 ((validRecord_iff e _).2 hg.1), by simp⟩, by simp, by simp⟩

/-- **C77.** Whatever the stack looks like, the unwinder ends; it loads only aligned words all of whose bytes can be
read; it prints the call sites of exactly the leading good records of the list, at most 20, in order; it says
that there may be more exactly if there are 20; and it says that the frame pointer is corrupted exactly if
the first record cannot be read. -/
theorem C77_backtrace (e : Sees) (fr : BitVec 64) :
    (∃ k ≤ 20, sites (unwind e fr) = (List.range k).map (fun i => siteOf e (frameAt e fr i)) ∧
      (∀ i < k, Good e (frameAt e fr i)) ∧ (k < 20 → ¬ Good e (frameAt e fr k)) ∧ (Ev.max ∈ unwind e fr ↔ k = 20)) ∧
    (∀ a, Ev.load a ∈ unwind e fr → Readable e a 8) ∧
    ∀ a, Ev.corrupted a ∈ unwind e fr ↔ a = fr ∧ ¬ GoodRecord e fr := by
  unfold unwind
  by_cases h : validRecord e fr = true
  · rw [if_neg (by simp [h])]
    obtain ⟨h1, h2, h3⟩ := loop_spec e 20 fr
    exact ⟨h1, h2, fun a => ⟨fun ha => absurd ha (h3 a), fun ha => absurd ((validRecord_iff e fr).1 h) ha.2⟩⟩
  · rw [if_pos (by simpa using h)]
    have hg : ¬ GoodRecord e fr := fun g => h ((validRecord_iff e fr).2 g)
    refine ⟨⟨0, by omega, rfl, by omega, fun _ g => hg g.1, by simp⟩, by simp, fun a => ?_⟩
    simp [hg]

/-- A stack of two records, the outer one with no parent. -/
def demo : Sees where
  readable a := decide (0x1000 ≤ a.toNat ∧ a.toNat < 0x3000)
  word a := if a = 0x1000 then 0x1040 else if a = 0x1008 then 0xab00000000002004 else if a = 0x1040 then 0
    else if a = 0x1048 then 0x2104 else 0
  strip a := a &&& 0xffffffffffff

example : unwind demo 0x1000 =
    [.load 0x1008, .site 0x2000, .load 0x1000, .load 0x1048, .site 0x2100, .load 0x1040] := by decide +kernel

/-- A list that is a circle. -/
example : sites (unwind { demo with word := fun a => if a = 0x1008 then 0x2004 else 0x1000 } 0x1000) =
    List.replicate 20 0x2000 := by decide +kernel

end Verif.Crash
