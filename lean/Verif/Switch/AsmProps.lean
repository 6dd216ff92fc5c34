import Verif.Switch.Asm

namespace Verif.Switch.Asm

theorem exec_append (p q : List I) (m : M) : exec (p ++ q) m = exec q (exec p m) := by
  simp [exec, List.foldl_append]

theorem exec_cons (i : I) (p : List I) (m : M) : exec (i :: p) m = exec p (one m i) := rfl

/-- The offset that the last of some pair loads brings into register `n`. -/
def src (n : Nat) : List (Nat × Nat × Nat) → Option Nat
  | [] => none
  | (a, b, off) :: l =>
    match src n l with
    | some o => some o
    | none => if n = b then some (off + 8) else if n = a then some off else none

def ldps (base : B) (l : List (Nat × Nat × Nat)) : List I := l.map fun t => .ldp t.1 t.2.1 base t.2.2

/-- Pair loads from a base register that none of them writes. -/
theorem exec_ldps (k : Nat) (l : List (Nat × Nat × Nat)) (h : ∀ t ∈ l, t.1 ≠ k ∧ t.2.1 ≠ k) (m : M) :
    exec (ldps (.x k) l) m = { m with x := fun n => match src n l with
      | some off => m.mem ((m.x k).toNat + off)
      | none => m.x n } := by
  induction l generalizing m with
  | nil => rfl
  | cons t l ih =>
    obtain ⟨a, b, off⟩ := t
    have h0 : a ≠ k ∧ b ≠ k := h _ (List.mem_cons_self ..)
    have h1 : ∀ t ∈ l, t.1 ≠ k ∧ t.2.1 ≠ k := fun t ht => h t (List.mem_cons_of_mem _ ht)
    show exec (ldps (.x k) l) (one m (.ldp a b (.x k) off)) = _
    rw [ih h1]
    have hk : (one m (.ldp a b (.x k) off)).x k = m.x k := by
      simp [one, upd, Ne.symm h0.1, Ne.symm h0.2]
    rw [hk]
    simp only [one, M.mk.injEq, and_true]
    funext n
    simp only [src, addr]
    cases src n l with
    | some o => rfl
    | none =>
      simp only [upd]
      split <;> rename_i hb
      · rfl
      · split <;> rfl

/-- The same from the stack pointer. -/
theorem exec_ldps_sp (l : List (Nat × Nat × Nat)) (m : M) :
    exec (ldps .sp l) m = { m with x := fun n => match src n l with
      | some off => m.mem (m.sp + off)
      | none => m.x n } := by
  induction l generalizing m with
  | nil => rfl
  | cons t l ih =>
    obtain ⟨a, b, off⟩ := t
    show exec (ldps .sp l) (one m (.ldp a b .sp off)) = _
    rw [ih]
    simp only [one, M.mk.injEq, and_true]
    funext n
    simp only [src, addr]
    cases src n l with
    | some o => rfl
    | none =>
      simp only [upd]
      split <;> rename_i hb
      · rfl
      · split <;> rfl

/-- The register that the last of some pair stores puts at offset `o`. -/
def dst (o : Nat) : List (Nat × Nat × Nat) → Option Nat
  | [] => none
  | (a, b, off) :: l =>
    match dst o l with
    | some n => some n
    | none => if o = off + 8 then some b else if o = off then some a else none

def stps (base : B) (l : List (Nat × Nat × Nat)) : List I := l.map fun t => .stp (.x t.1) (.x t.2.1) base t.2.2

/-- Pair stores change only memory: offset by offset they leave the register `dst` names. -/
theorem exec_stps (base : B) (l : List (Nat × Nat × Nat)) (m : M) :
    exec (stps base l) m = { m with mem := fun a => match (if addr m base 0 ≤ a then dst (a - addr m base 0) l else none) with
      | some n => m.x n
      | none => m.mem a } := by
  induction l generalizing m with
  | nil => simp [stps, exec, dst]
  | cons t l ih =>
    obtain ⟨a, b, off⟩ := t
    show exec (stps base l) (one m (.stp (.x a) (.x b) base off)) = _
    rw [ih]
    have ha : addr (one m (.stp (.x a) (.x b) base off)) base 0 = addr m base 0 := by cases base <;> rfl
    have ho : addr m base off = addr m base 0 + off := by cases base <;> rfl
    rw [ha]
    simp only [one, M.mk.injEq, and_true, true_and]
    funext c
    rw [ho]
    generalize addr m base 0 = p
    by_cases hc : p ≤ c
    · simp only [dst, hc, if_true, rd, upd]
      cases dst (c - p) l with
      | some o => rfl
      | none =>
        by_cases h1 : c = p + off + 8
        · rw [if_pos h1, if_pos (by omega)]
        · rw [if_neg h1, if_neg (by omega : ¬c - p = off + 8)]
          by_cases h2 : c = p + off
          · rw [if_pos h2, if_pos (by omega)]
          · rw [if_neg h2, if_neg (by omega : ¬c - p = off)]
    · simp only [hc, if_false, upd]
      rw [if_neg (by omega), if_neg (by omega)]

/-- A property of the 31 general registers can be checked register by register. -/
theorem regs31 {P : Nat → Prop} (h : ∀ k : Fin 31, P k) {n : Nat} (hn : n ≤ 30) : P n := h ⟨n, by omega⟩

def saved : List (Nat × Nat × Nat) :=
  [(19, 20, 0), (21, 22, 16), (23, 24, 32), (25, 26, 48), (27, 28, 64), (29, 30, 80)]

def area : List (Nat × Nat × Nat) :=
  [(2, 3, 16), (4, 5, 32), (6, 7, 48), (8, 9, 64), (10, 11, 80), (12, 13, 96), (14, 15, 112), (16, 17, 128),
   (18, 19, 144), (20, 21, 160), (22, 23, 176), (24, 25, 192), (26, 27, 208), (28, 29, 224)]

theorem runRealm_eq : runRealm = [.subSp 96] ++ (stps .sp saved ++ ([.push (.x 0) .xzr 16] ++ (ldps (.x 0) area ++
    [.ldr 30 (.x 0) 240, .ldr 1 (.x 0) 248, .msrSpEl0 1, .ldp 0 1 (.x 0) 0]))) := rfl

theorem realmExit_eq (e : W) : realmExit e = [.ldr 1 .sp 16] ++ (stps (.x 1) area ++
    ([.str 30 (.x 1) 240, .mrsSpEl0 2, .str 2 (.x 1) 248, .movImm 2 e, .msrSpEl0 2, .msrDitXzr, .ldp 2 3 .sp 0,
      .stp (.x 2) (.x 3) (.x 1) 0, .addSp 32] ++ (ldps .sp saved ++ [.addSp 96, .ret]))) := rfl

theorem src_area {n : Nat} (h1 : 2 ≤ n) (h2 : n ≤ 29) : src n area = some (8 * n) :=
  (by decide : ∀ k : Fin 31, 2 ≤ k.val → k.val ≤ 29 → src k.val area = some (8 * k.val)) ⟨n, by omega⟩ h1 h2

theorem src_saved {n : Nat} (h1 : 19 ≤ n) (h2 : n ≤ 30) : src n saved = some (8 * (n - 19)) :=
  (by decide : ∀ k : Fin 31, 19 ≤ k.val → k.val ≤ 30 → src k.val saved = some (8 * (k.val - 19))) ⟨n, by omega⟩ h1 h2

theorem dst_area {n : Nat} (h1 : 2 ≤ n) (h2 : n ≤ 29) : dst (8 * n) area = some n :=
  (by decide : ∀ k : Fin 31, 2 ≤ k.val → k.val ≤ 29 → dst (8 * k.val) area = some k.val) ⟨n, by omega⟩ h1 h2

theorem dst_saved {n : Nat} (h1 : 19 ≤ n) (h2 : n ≤ 30) : dst (8 * (n - 19)) saved = some n :=
  (by decide : ∀ k : Fin 31, 19 ≤ k.val → k.val ≤ 30 → dst (8 * (k.val - 19)) saved = some k.val) ⟨n, by omega⟩ h1 h2

theorem dst_out_area {o : Nat} (h : o < 16 ∨ 240 ≤ o) : dst o area = none := by
  simp only [area, dst]
  repeat rw [if_neg (by omega)]

theorem dst_out_saved {o : Nat} (h : 96 ≤ o) : dst o saved = none := by
  simp only [saved, dst]
  repeat rw [if_neg (by omega)]

theorem src_none_saved {n : Nat} (h : n < 19 ∨ 30 < n) : src n saved = none := by
  simp only [saved, src]
  repeat rw [if_neg (by omega)]

/-- The machine when `run_realm` has pushed what it must keep. -/
def pushed (m : M) : M := exec ([.subSp 96] ++ (stps .sp saved ++ [.push (.x 0) .xzr 16])) m

theorem pushed_facts (m : M) (s : Nat) (hs : m.sp = s + 128) :
    (pushed m).sp = s + 16 ∧ (pushed m).x = m.x ∧ (pushed m).mem (s + 16) = m.x 0 ∧
    (∀ n, 19 ≤ n → n ≤ 30 → (pushed m).mem (s + 32 + 8 * (n - 19)) = m.x n) ∧
    (∀ a, a < s + 16 ∨ s + 128 ≤ a → (pushed m).mem a = m.mem a) := by
  simp only [pushed, exec_append, exec_stps]
  simp only [exec, List.foldl, one, addr, hs, rd, upd, Nat.add_zero]
  refine ⟨by omega, trivial, ?_, fun n h1 h2 => ?_, fun a ha => ?_⟩
  · rw [if_neg (by omega), if_pos (by omega)]
  · rw [if_neg (by omega), if_neg (by omega), if_pos (by omega)]
    rw [show s + 32 + 8 * (n - 19) - (s + 128 - 96) = 8 * (n - 19) by omega, dst_saved h1 h2]
  · rw [if_neg (by omega), if_neg (by omega)]
    by_cases h : s + 128 - 96 ≤ a
    · rw [if_pos h, dst_out_saved (by omega)]
    · rw [if_neg h]

theorem runRealm_pushed (m : M) : exec runRealm m = exec (ldps (.x 0) area ++
    [.ldr 30 (.x 0) 240, .ldr 1 (.x 0) 248, .msrSpEl0 1, .ldp 0 1 (.x 0) 0]) (pushed m) := by
  rw [runRealm_eq]
  simp only [pushed, exec_append]

theorem enter_facts (m : M) (s recp : Nat) (hs : m.sp = s + 128) (hr : (m.x 0).toNat = recp)
    (hd : s + 128 ≤ recp ∨ recp + 256 ≤ s) :
    Loaded recp m (exec runRealm m) ∧ (exec runRealm m).sp = s + 16 ∧ (exec runRealm m).mem = (pushed m).mem := by
  obtain ⟨p1, p2, _, _, p5⟩ := pushed_facts m s hs
  rw [runRealm_pushed, exec_append, exec_ldps 0 area (by decide)]
  have s0 : src 0 area = none := by decide
  have s1 : src 1 area = none := by decide
  have s30 : src 30 area = none := by decide
  simp only [exec, List.foldl, one, addr, Loaded, upd, p2, hr, s0]
  refine ⟨⟨fun n hn => ?_, ?_⟩, p1, trivial⟩
  · by_cases h0 : n = 0
    · subst h0; simp [hr]; exact p5 _ (by omega)
    · by_cases h1 : n = 1
      · subst h1; simp [hr]; exact p5 _ (by omega)
      · by_cases h30 : n = 30
        · subst h30; simp; exact p5 _ (by omega)
        · simp only [h0, h1, h30, if_false, src_area (n := n) (by omega) (by omega)]
          exact p5 _ (by omega)
  · simp [hr]; exact p5 _ (by omega)

/-- The machine when `realm_exit` has stored X2-X29, with the REC pointer in X1. -/
def storing (code : W) (r : M) : M := exec (vector code ++ ([.ldr 1 .sp 16] ++ stps (.x 1) area)) r

theorem storing_facts (code : W) (r : M) (s recp : Nat) (hs : r.sp = s + 16) (hp : (r.mem (s + 16)).toNat = recp)
    (hd : s + 128 ≤ recp ∨ recp + 256 ≤ s) :
    (storing code r).sp = s ∧ (storing code r).spEl0 = r.spEl0 ∧ (storing code r).x 0 = code ∧
    ((storing code r).x 1).toNat = recp ∧ (storing code r).x 30 = r.x 30 ∧
    (storing code r).mem s = r.x 0 ∧ (storing code r).mem (s + 8) = r.x 1 ∧
    (∀ n, 2 ≤ n → n ≤ 29 → (storing code r).mem (recp + 8 * n) = r.x n) ∧
    (∀ a, (a < recp + 16 ∨ recp + 240 ≤ a) → (a < s ∨ s + 16 ≤ a) → (storing code r).mem a = r.mem a) := by
  simp only [storing, exec_append, exec_stps]
  simp only [vector, exec, List.foldl, one, addr, hs, rd, upd, Nat.add_zero, Nat.add_sub_cancel]
  have e0 : (1 : Nat) = 0 ↔ False := by simp
  have e1 : s + 16 = s + 8 ↔ False := by simp
  have e2 : s + 16 = s ↔ False := by simp
  simp only [e0, e1, e2, if_true, if_false, hp]
  refine ⟨trivial, trivial, by simp, trivial, by simp, ?_, ?_, fun n h1 h2 => ?_, fun a h1 h2 => ?_⟩
  · by_cases h : recp ≤ s
    · rw [if_pos h, dst_out_area (by omega)]; simp
    · rw [if_neg h]; simp
  · by_cases h : recp ≤ s + 8
    · rw [if_pos h, dst_out_area (by omega)]
    · rw [if_neg h]
  · rw [if_pos (by omega), show recp + 8 * n - recp = 8 * n by omega, dst_area h1 h2]
    simp only
    rw [if_neg (by omega), if_neg (by omega)]
  · by_cases h : recp ≤ a
    · rw [if_pos h, dst_out_area (by omega)]
      simp only
      rw [if_neg (by omega), if_neg (by omega)]
    · rw [if_neg h]
      simp only
      rw [if_neg (by omega), if_neg (by omega)]

theorem exit_facts (code e : W) (r : M) (s recp : Nat) (hs : r.sp = s + 16) (hp : (r.mem (s + 16)).toNat = recp)
    (hd : s + 128 ≤ recp ∨ recp + 256 ≤ s) (k : Nat → W)
    (hk : ∀ n, 19 ≤ n → n ≤ 30 → r.mem (s + 32 + 8 * (n - 19)) = k n) :
    let f := exec (vector code ++ realmExit e) r
    f.x 0 = code ∧ (∀ n, 19 ≤ n → n ≤ 30 → f.x n = k n) ∧ f.sp = s + 128 ∧ f.pc = (k 30).toNat ∧ f.spEl0 = e ∧
    f.dit = false ∧ Stored recp r f ∧
    (∀ a, (a < recp ∨ recp + 256 ≤ a) → (a < s ∨ s + 16 ≤ a) → f.mem a = r.mem a) := by
  obtain ⟨q1, q2, q3, q4, q5, q6, q7, q8, q9⟩ := storing_facts code r s recp hs hp hd
  have he : exec (vector code ++ realmExit e) r = exec ([.str 30 (.x 1) 240, .mrsSpEl0 2, .str 2 (.x 1) 248,
      .movImm 2 e, .msrSpEl0 2, .msrDitXzr, .ldp 2 3 .sp 0, .stp (.x 2) (.x 3) (.x 1) 0, .addSp 32] ++
      (ldps .sp saved ++ [.addSp 96, .ret])) (storing code r) := by
    rw [realmExit_eq]
    simp only [storing, exec_append]
  intro f
  have hf : f = exec (vector code ++ realmExit e) r := rfl
  rw [he] at hf
  simp only [exec_append, exec_ldps_sp] at hf
  simp only [exec, List.foldl, one, addr, rd, upd, Nat.add_zero] at hf
  have a1 : (1 : Nat) = 2 ↔ False := by simp
  have a2 : (1 : Nat) = 3 ↔ False := by simp
  have a3 : (2 : Nat) = 3 ↔ False := by simp
  have a4 : (3 : Nat) = 2 ↔ False := by simp
  simp only [a1, a2, a3, a4, if_true, if_false, q1, q2, q4, q5] at hf
  have z0 : src 0 saved = none := by decide
  have stk : ∀ n, 19 ≤ n → n ≤ 30 → (storing code r).mem (s + 32 + 8 * (n - 19)) = k n := by
    intro n h1 h2
    rw [q9 _ (by omega) (by omega), hk n h1 h2]
  have fx : ∀ n, 19 ≤ n → n ≤ 30 → f.x n = k n := by
    intro n h1 h2
    rw [hf]
    simp only [src_saved h1 h2]
    rw [if_neg (by omega), if_neg (by omega), if_neg (by omega), if_neg (by omega), stk n h1 h2]
  refine ⟨?_, fx, ?_, ?_, ?_, ?_, ⟨fun n hn => ?_, ?_⟩, fun a h1 h2 => ?_⟩
  · rw [hf]; simp only [z0]; simp [q3]
  · rw [hf]
  · rw [← fx 30 (by omega) (by omega), hf]
    rfl
  · rw [hf]
  · rw [hf]
  · rw [hf]
    by_cases h0 : n = 0
    · subst h0
      simp only [upd, Nat.mul_zero, Nat.add_zero]
      rw [if_neg (by omega), if_pos trivial, if_neg (by omega), if_neg (by omega), q6]
    · by_cases h1 : n = 1
      · subst h1
        simp only [upd, Nat.mul_one, if_true]
        rw [if_neg (by omega), if_neg (by omega), q7]
      · by_cases h30 : n = 30
        · subst h30
          simp [upd]
        · simp only [upd]
          rw [if_neg (by omega), if_neg (by omega), if_neg (by omega), if_neg (by omega), q8 n (by omega) (by omega)]
  · rw [hf]
    simp [upd]
  · rw [hf]
    simp only [upd]
    rw [if_neg (by omega), if_neg (by omega), if_neg (by omega), if_neg (by omega), q9 a (by omega) h2]

/-! ## The theorems -/

/-- C62, entering: whatever the CPU's registers and RMM's stack hold, the realm starts with exactly the general registers
and SP_EL0 that its REC records. -/
theorem C62_enter (m : M) (recp : Nat) (h : Apart m recp) : Loaded recp m (exec runRealm m) := by
  obtain ⟨h1, _, _, h4, h5⟩ := h
  exact (enter_facts m (m.sp - 128) recp (by omega) h4 (by omega)).1

/-- C62, leaving: for every caller, every REC and everything the realm does to its registers, after the exception the REC
records exactly the realm's registers, the caller of `run_realm` finds its registers and stack pointer and the code
of the exception, SP_EL0 points to the exception stack, DIT is off, and no other memory has changed. -/
theorem C62_leave (m r : M) (recp : Nat) (code e : W) (h : Apart m recp) (hr : RealmRuns (exec runRealm m) r) :
    let f := exec (vector code ++ realmExit e) r
    Stored recp r f ∧ Returned m f ∧ f.x 0 = code ∧ f.spEl0 = e ∧ f.dit = false ∧ Elsewhere recp m f := by
  obtain ⟨h1, h2, h3, h4, h5⟩ := h
  have hs : m.sp = (m.sp - 128) + 128 := by omega
  obtain ⟨p1, p2, p3, p4, p5⟩ := pushed_facts m (m.sp - 128) hs
  obtain ⟨e1, e2, e3⟩ := enter_facts m (m.sp - 128) recp hs h4 (by omega)
  obtain ⟨r1, r2⟩ := hr
  have hm : r.mem = (pushed m).mem := r1.trans e3
  have := exit_facts code e r (m.sp - 128) recp (r2.trans e2) (by rw [hm, p3, h4]) (by omega) m.x
    (fun n a b => by rw [hm, p4 n a b])
  obtain ⟨x1, x2, x3, x4, x5, x6, x7, x8⟩ := this
  refine ⟨x7, ⟨x2, by omega, x4⟩, x1, x5, x6, fun a ha hb hc => ?_⟩
  rw [x8 a ha (by omega), hm, p5 a (by omega)]

namespace Demo

/-- A call of `run_realm` with the REC at 0x1000 and the stack pointer at 0x8000; every word of memory holds its own
address and every register its own number. -/
def call : M where
  x := fun n => if n = 0 then 0x1000 else BitVec.ofNat 64 n
  sp := 0x8000
  spEl0 := 7
  dit := true
  mem := fun a => BitVec.ofNat 64 a
  pc := 0

def back : M := { exec runRealm call with x := fun n => BitVec.ofNat 64 (n + 100), spEl0 := 55 }

example : Apart call 0x1000 := by refine ⟨?_, ?_, ?_, ?_, Or.inr ?_⟩ <;> decide +kernel

example : RealmRuns (exec runRealm call) back := by
  unfold RealmRuns back
  generalize exec runRealm call = c
  exact ⟨rfl, rfl⟩

example : (exec runRealm call).x 17 = 0x1088 ∧ (exec runRealm call).spEl0 = 0x10F8 := by decide +kernel

example : (exec (vector 3 ++ realmExit 0x77) back).mem 0x1088 = 117 ∧
    (exec (vector 3 ++ realmExit 0x77) back).x 25 = 25 ∧ (exec (vector 3 ++ realmExit 0x77) back).x 0 = 3 := by
  decide +kernel

end Demo

end Verif.Switch.Asm
