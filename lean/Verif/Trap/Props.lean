import Verif.Trap.Step

/-!
# The host cannot crash RMM by taking a granule away (C63)
-/

namespace Verif.Trap

section
variable {L : Lay} {m m' : M} {b : Bool} {dst src n k : Nat}

theorem inv_start (hE : Entry L m b dst src n) : Inv ⟨L, m, b, dst, src, n⟩ (5 * n + 70) m := by
  refine .p0 0 (by omega) hE.pc ⟨⟨rfl, ?_, ?_, ?_⟩, rfl, hE.selX, fun _ _ _ => rfl⟩ (by omega) hE.x0 hE.x1 hE.x2
  · cases b <;> simp [reads, writes]
  · intro a _ _; rw [put_nil]
  · intro _ i h; simp at h

theorem inv_run (hL : L.Ok) (hE : Entry L m b dst src n) (h : Run L m k m') :
    ∃ r, Inv ⟨L, m, b, dst, src, n⟩ r m' ∧ k + r ≤ 5 * n + 70 := by
  induction h with
  | nil => exact ⟨_, inv_start hE, by omega⟩
  | @cpu k m1 m2 _ e ih =>
    obtain ⟨r, h1, h2⟩ := ih
    by_cases hp : ∃ i < 10, m1.pc = C.base ⟨L, m, b, dst, src, n⟩ + 4 * i
    · obtain ⟨r', h3, h4⟩ := loop_step hL hE h1 e hp
      exact ⟨r', h4, by omega⟩
    · obtain ⟨r', h3, h4⟩ := trap_step hL hE h1 e hp
      exact ⟨r', h4, by omega⟩
  | env _ e ih =>
    obtain ⟨r, h1, h2⟩ := ih
    exact ⟨r, h1.env ⟨hE.room, hE.sp8, hE.eh⟩ e, h2⟩

/-- Between call and return there is an instruction to execute; the call of the handler is one that
returns. -/
theorem inv_code {c : C} {r : Nat} (hL : c.L.Ok) (h : Inv c r m) :
    m.pc = (c.m.x 30).toNat ∧ r = 0 ∨
    ∃ i, code c.L m.pc = some i ∧ (i = .call → ∃ t, handle c.L m.esr m.elr = some t) := by
  have hcc : ∀ i, m.pc = c.base + 4 * i → i < 10 →
      ∃ y, code c.L m.pc = some y ∧ (y = .call → ∃ t, handle c.L m.esr m.elr = some t) := by
    intro i h1 h2
    have k : ∀ i : Fin 10, ∃ y ∈ copy, copy[i.val]? = some y ∧ y ≠ .call := by decide
    obtain ⟨y, _, hy, hn⟩ := k ⟨i, h2⟩
    exact ⟨y, by rw [h1]; exact (code_copy hL c.b h2).trans hy, fun h => absurd h hn⟩
  have hct : ∀ i, m.pc = c.L.vec + 4 * i → i < 38 → i ≠ 18 →
      ∃ y, code c.L m.pc = some y ∧ (y = .call → ∃ t, handle c.L m.esr m.elr = some t) := by
    intro i h1 h2 h3
    have k : ∀ i : Fin 38, i.val ≠ 18 → ∃ y ∈ trap, trap[i.val]? = some y ∧ y ≠ .call := by decide
    obtain ⟨y, _, hy, hn⟩ := k ⟨i, h2⟩ h3
    exact ⟨y, by rw [h1]; exact (code_trap hL h2).trans hy, fun h => absurd h hn⟩
  cases h with
  | p0 i h1 h2 => exact .inr (hcc i h2 (by omega))
  | p3 vs h1 => exact .inr (hcc 3 h1 (by omega))
  | p4 vs v h1 => exact .inr (hcc 4 h1 (by omega))
  | p5 i k vs h0 h1 h2 => exact .inr (hcc (5 + i) h2 (by omega))
  | p8 i vs h1 h2 => exact .inr (hcc (8 + i) h2 (by omega))
  | done r vs ws h1 => exact .inl ⟨h1, rfl⟩
  | t0 vs ws X h1 => exact .inr ⟨_, by rw [h1]; exact code_vec hL, fun h => by cases h⟩
  | t1 vs ws X h1 => exact .inr (hct 0 h1 (by omega) (by omega))
  | t2 k vs ws X h0 h1 => exact .inr (hct (k + 1) h1 (by omega) (by omega))
  | t3 vs ws X h1 h2 h3 => exact .inr ⟨_, by rw [h1]; exact code_trap hL (by omega), fun _ => ⟨_, h3⟩⟩
  | t4 vs ws X h1 => exact .inr (hct 19 h1 (by omega) (by omega))
  | t5 k vs ws X h0 h1 => exact .inr (hct (20 + k) h1 (by omega) (by omega))
  | t6 vs ws X h1 => exact .inr (hct 37 h1 (by omega) (by omega))
  | r i vs ws h1 h2 =>
    have k : ∀ i : Fin 3, ∃ y ∈ ret0, ret0[i.val]? = some y ∧ y ≠ .call := by decide
    obtain ⟨y, _, hy, hn⟩ := k ⟨i, by omega⟩
    exact .inr ⟨y, by rw [h2]; exact (code_ret0 hL (by omega)).trans hy, fun h => absurd h hn⟩

theorem gpf_ex : Gpf 0x94000028 := by unfold Gpf; decide

/-- C63: whatever the host does to its granule and whenever it takes it away, RMM does not stop with a fatal error during
a copy... -/
theorem C63_not_fatal (hL : L.Ok) (hE : Entry L m b dst src n) (h : Run L m k m') : ¬ Cpu L m' none := by
  intro e
  obtain ⟨r, hi, _⟩ := inv_run hL hE h
  cases e with
  | fatal h1 h2 =>
    rcases inv_code hL hi with ⟨h3, _⟩ | ⟨i, h3, h4⟩
    · have := hE.ret
      rw [← h3, h1] at this
      cases this
    · dsimp only at h3 h4
      rw [h1] at h3
      cases h3
      obtain ⟨t, ht⟩ := h4 rfl
      rw [h2] at ht
      cases ht

/-- C63: ... it can always go on until the copy has returned to its caller ... -/
theorem C63_progress (hL : L.Ok) (hE : Entry L m b dst src n) (h : Run L m k m') (hp : m'.pc ≠ (m.x 30).toNat) :
    ∃ m'', Cpu L m' (some m'') := by
  obtain ⟨r, hi, _⟩ := inv_run hL hE h
  rcases inv_code hL hi with ⟨h3, _⟩ | ⟨i, h3, h4⟩
  · exact absurd h3 hp
  · dsimp only at h3 h4
    by_cases hc : i = .call
    · subst hc
      obtain ⟨t, ht⟩ := h4 rfl
      refine ⟨{ m' with x := upd m'.x 0 (BitVec.ofNat 64 t), pc := m'.pc + 4 }, .call h3 ht
        ⟨rfl, fun n h1 _ => ?_, rfl, rfl, rfl, rfl, rfl, rfl, rfl, fun _ _ _ => rfl⟩⟩
      show (if n = 0 then _ else _) = _
      rw [if_neg (by omega)]
    · cases hf : faults L m' i
      · exact ⟨_, .run h3 hc hf⟩
      · exact ⟨_, .fault h3 hc hf gpf_ex⟩

/-- C63: ... and it returns after at most five instructions per word and 70 more. -/
theorem C63_bound (hL : L.Ok) (hE : Entry L m b dst src n) (h : Run L m k m') : k ≤ 5 * n + 70 := by
  obtain ⟨r, _, h⟩ := inv_run hL hE h
  omega

theorem returned (hL : L.Ok) (hE : Entry L m b dst src n) (h : Run L m k m') (hp : m'.pc = (m.x 30).toNat) :
    ∃ r vs ws, Nm ⟨L, m, b, dst, src, n⟩ m' vs ws ∧ Q ⟨L, m, b, dst, src, n⟩ vs ws ∧
      (r = true → ws.length = n) ∧ m'.x 0 = (if r then 1 else 0) := by
  obtain ⟨r, hi, _⟩ := inv_run hL hE h
  rcases inv_code hL hi with ⟨_, rfl⟩ | ⟨i, h3, _⟩
  · generalize hz : 0 = z at hi
    cases hi with
    | done r vs ws h1 h2 h3 h4 h5 => exact ⟨r, vs, ws, h2, h3, h4, h5⟩
    | _ => omega
  · have := hE.ret
    rw [← hp] at this
    dsimp only at h3
    rw [h3] at this
    cases this

/-- C63: what the caller of `memcpy_ns_read` finds.  RMM has read a prefix of the host's words, in order and each
exactly once, and its buffer has the values read; all of them if the result is 1.  No other memory
of RMM has changed except for the exception stack, and of the registers only X0 to X4 have. -/
theorem C63_read (hL : L.Ok) (hE : Entry L m true dst src n) (h : Run L m k m') (hp : m'.pc = (m.x 30).toNat) :
    ∃ vs : List W, vs.length ≤ n ∧ m'.log = m.log ++ reads src vs ∧
      (m'.x 0 = 1 ∧ vs.length = n ∨ m'.x 0 = 0) ∧
      (∀ i (h : i < vs.length), m'.mem (dst + 8 * i) = vs[i]) ∧
      (∀ a, L.ns a = false → (a < L.ehLo ∨ m.sp0 ≤ a) → (∀ i < vs.length, a ≠ dst + 8 * i) → m'.mem a = m.mem a) ∧
      (∀ i, 5 ≤ i → i ≤ 30 → m'.x i = m.x i) ∧ m'.spx = m.spx ∧ m'.sp0 = m.sp0 ∧ m'.selX = true := by
  obtain ⟨r, vs, ws, h1, h2, h3, h4⟩ := returned hL hE h hp
  obtain rfl := h2.rd rfl
  have hle : vs.length ≤ n := h2.le
  refine ⟨vs, hle, h1.log, ?_, ?_, ?_, h1.xs, h1.spx, h1.sp0, h1.selX⟩
  · cases r
    · exact .inr h4
    · exact .inl ⟨h4, h3 rfl⟩
  · intro i hi
    have hn := hE.near i (by omega)
    simp only [if_true] at hn
    rw [h1.mem _ hn.1 hn.2]
    unfold put
    dsimp only
    rw [if_pos (by omega), show (dst + 8 * i - dst) / 8 = i by omega, List.getElem?_eq_getElem hi]
    rfl
  · intro a ha hb hc
    rw [h1.mem a ha hb]
    exact put_other hc

/-- C63: what the caller of `memcpy_ns_write` finds.  RMM has written a prefix of its words, in order and each exactly
once, to the host's granule and nothing else; all of them if the result is 1.  RMM's memory is as before
except for the exception stack. -/
theorem C63_write (hL : L.Ok) (hE : Entry L m false dst src n) (h : Run L m k m') (hp : m'.pc = (m.x 30).toNat) :
    ∃ ws : List W, ws.length ≤ n ∧ m'.log = m.log ++ writes dst ws ∧
      (∀ i (h : i < ws.length), ws[i] = m.mem (src + 8 * i)) ∧
      (m'.x 0 = 1 ∧ ws.length = n ∨ m'.x 0 = 0) ∧
      (∀ a, L.ns a = false → (a < L.ehLo ∨ m.sp0 ≤ a) → m'.mem a = m.mem a) ∧
      (∀ i, 5 ≤ i → i ≤ 30 → m'.x i = m.x i) ∧ m'.spx = m.spx ∧ m'.sp0 = m.sp0 ∧ m'.selX = true := by
  obtain ⟨r, vs, ws, h1, h2, h3, h4⟩ := returned hL hE h hp
  have hpre := h2.wr rfl
  have hle : vs.length ≤ n := h2.le
  have hlen := hpre.length_le
  refine ⟨ws, by omega, h1.log, ?_, ?_, ?_, h1.xs, h1.spx, h1.sp0, h1.selX⟩
  · intro i hi
    rw [hpre.getElem hi]
    exact h1.src rfl i (by omega)
  · cases r
    · exact .inr h4
    · exact .inl ⟨h4, h3 rfl⟩
  · intro a ha hb
    rw [h1.mem a ha hb]
    refine put_other fun i hi e => ?_
    have := hE.far i (by omega)
    simp only [Bool.false_eq_true, if_false] at this
    rw [← e, ha] at this
    cases this

/-- C63: nothing else is recovered from.  When RMM goes on after an exception of its own, the exception was a granule
protection fault of a data access (not of a table walk) on one of the two registered instructions. -/
theorem C63_else_fatal (hc : code L m.pc = some .call) (h : Cpu L m (some m')) :
    Gpf m.esr ∧ (m.elr = L.rd + 12 ∨ m.elr = L.wr + 16) := by
  cases h with
  | run h k => rw [hc] at h; cases h; exact absurd rfl k
  | fault h k => rw [hc] at h; cases h; exact absurd rfl k
  | @call _ t h k _ =>
    unfold handle at k
    split at k
    · rename_i hg
      refine ⟨isGpf_iff.mp hg, ?_⟩
      unfold trapList at k
      simp only [List.lookup] at k
      split at k
      · rename_i e; exact .inl (beq_iff_eq.mp e)
      · split at k
        · rename_i e; exact .inr (beq_iff_eq.mp e)
        · cases k
    · cases k

end

end Verif.Trap
