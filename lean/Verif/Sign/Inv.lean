import Verif.Sign.Model
import Verif.Tac

/-! Invariants of the executions: who runs a REC, and which tickets are in use. -/

namespace Verif.Sign

/-- The response a CPU has pulled. -/
def Pc.held : Pc → Option Resp
  | .find _ r | .write1 _ _ r | .write2 _ _ r | .write3 _ _ r | .write4 _ _ r => some r
  | _ => none

/-- The other REC to which a CPU is writing. -/
def Pc.foreign : Pc → Option Nat
  | .write1 a b _ | .write2 a b _ | .write3 a b _ | .write4 a b _ | .write5 a b => if b = a then none else some b
  | _ => none

/-- A request or response for `k`, with the given ticket and hash, exists. -/
def State.msg (s : State) (k n h : Nat) : Prop :=
  ⟨k, n, h⟩ ∈ s.reqs ∨ (∃ l, ⟨k, n, h, l⟩ ∈ s.resps) ∨ ∃ c l, (s.pc c).held = some ⟨k, n, h, l⟩

/-- What holds of the data of REC `a` when its CPU is at `p`. -/
def Pc.good (p : Pc) (t : Att) : Prop :=
  match p with
  | .init1 _ _ | .init2 _ _ => t.phase = .notStarted ∧ t.ctx.ticket = 0
  | .init3 _ _ => t.phase = .init
  | .sign1 _ | .sign2 _ => t.phase = .sign
  | .sign3 _ | .sign4 _ | .sign5 _ => t.phase = .sign ∧ t.started = true
  | _ => True

/-- What holds of the data of REC `a`. -/
structure Att.Good (t : Att) (a ctr : Nat) : Prop where
  lt : t.ctx.ticket < ctr
  init : t.phase = .init → t.ctx.ticket = 0 ∧ t.ctx.cookie = a
  cookie : t.phase = .sign → t.ctx.cookie = a
  hash : t.phase = .sign → t.started = true → t.ctx.hash = t.want

structure Inv (s : State) : Prop where
  run : ∀ c a, (s.pc c).rec? = some a → s.refs a = true ∧ ∃ t, s.recs a = some t ∧ (s.pc c).good t
  uniq : ∀ c c' a, (s.pc c).rec? = some a → (s.pc c').rec? = some a → c = c'
  foreign : ∀ c b, (s.pc c).foreign = some b → s.glock b = true ∧ ∃ t, s.recs b = some t
  funiq : ∀ c c' b, (s.pc c).foreign = some b → (s.pc c').foreign = some b → c = c'
  cook : ∀ c a b r, (s.pc c = .write1 a b r ∨ s.pc c = .write2 a b r ∨ s.pc c = .write3 a b r) → r.cookie = b
  tick : ∀ k n h, s.msg k n h → 0 < n ∧ n < s.ctr
  att : ∀ a t, s.recs a = some t → t.Good a s.ctr
  last : ∀ a n h t, s.msg a n h → s.recs a = some t → t.ctx.ticket = 0 ∨ n ≤ t.ctx.ticket
  same : ∀ a n h t, s.msg a n h → s.recs a = some t → t.ctx.ticket = n → h = t.want ∧ t.ctx.queued = true
  ctr : 0 < s.ctr

theorem inv_start : Inv start := by
  constructor <;> simp [start, Pc.rec?, Pc.foreign, State.msg, Pc.held]

/-- A change to the data of a REC other than the one that runs: its locks, flags and buffers. -/
def Att.Frame (t t' : Att) : Prop :=
  t'.ctx.ticket = t.ctx.ticket ∧ t'.ctx.cookie = t.ctx.cookie ∧ t'.ctx.hash = t.ctx.hash ∧
  t'.ctx.queued = t.ctx.queued ∧ t'.want = t.want ∧ t'.started = t.started ∧ t'.phase = t.phase

/-- A step of CPU `c` in RMM. -/
theorem inv_cpu {s s' : State} {c a : Nat} {p : Pc} (hi : Inv s) (ha : (s.pc c).rec? = some a)
    (hpc : s'.pc = upd s.pc c p) (hrefs : s'.refs = s.refs) (hctr : s.ctr ≤ s'.ctr) (hrec : p.rec? = some a)
    (hfor : ∀ b, p.foreign = some b →
      (s.pc c).foreign = some b ∨ (s.glock b = false ∧ s'.glock b = true ∧ ∃ t, s.recs b = some t))
    (hgl : ∀ b, s'.glock b = false → s.glock b = true → (s.pc c).foreign = some b ∧ p.foreign ≠ some b)
    (hcook : ∀ a b r, (p = .write1 a b r ∨ p = .write2 a b r ∨ p = .write3 a b r) → r.cookie = b)
    (hmsg : ∀ k n h, s'.msg k n h → s.msg k n h ∨ (k = a ∧ n = s.ctr ∧ s.ctr < s'.ctr))
    (hoth : ∀ b, b ≠ a → (s.recs b = none → s'.recs b = none) ∧
      ∀ t, s.recs b = some t → ∃ t', s'.recs b = some t' ∧ t.Frame t')
    (hown : ∀ t, s.recs a = some t → (s.pc c).good t → t.Good a s.ctr → ∃ t', s'.recs a = some t' ∧ t'.Good a s'.ctr ∧ p.good t' ∧
      (t'.ctx.ticket = 0 ∧ (∀ n h, s'.msg a n h → s.msg a n h) ∨
       (t'.ctx.ticket = t.ctx.ticket ∧ t'.want = t.want ∧ t'.ctx.queued = t.ctx.queued ∧
        (∀ n h, s'.msg a n h → s.msg a n h)) ∨
       (t'.ctx.ticket = s.ctr ∧ s.ctr < s'.ctr ∧
        ∀ h, s'.msg a s.ctr h → ¬ s.msg a s.ctr h → h = t'.want ∧ t'.ctx.queued = true))) : Inv s' := by
  obtain ⟨hr, t, ht, hg⟩ := hi.run c a ha
  obtain ⟨t', ht', hgood', hpg, hcase⟩ := hown t ht hg (hi.att a t ht)
  have hpcc : ∀ d, s'.pc d = if d = c then p else s.pc d := by intro d; rw [hpc]; rfl
  have hsome : ∀ b t0, s.recs b = some t0 → ∃ t1, s'.recs b = some t1 := by
    intro b t0 h0
    by_cases hb : b = a
    · subst hb; exact ⟨t', ht'⟩
    · obtain ⟨t1, h1, _⟩ := (hoth b hb).2 t0 h0; exact ⟨t1, h1⟩
  have hback : ∀ b t1, b ≠ a → s'.recs b = some t1 → ∃ t0, s.recs b = some t0 ∧ t0.Frame t1 := by
    intro b t1 hb h1
    cases h0 : s.recs b with
    | none => rw [(hoth b hb).1 h0] at h1; cases h1
    | some t0 =>
      obtain ⟨t2, h2, hf⟩ := (hoth b hb).2 t0 h0
      rw [h2] at h1; cases h1; exact ⟨t0, rfl, hf⟩
  have hnew : ∀ h, ¬ s.msg a s.ctr h := fun h hm => absurd (hi.tick _ _ _ hm).2 (Nat.lt_irrefl _)
  constructor
  · intro d b hd
    rw [hpcc] at hd ⊢
    by_cases hdc : d = c
    · rw [if_pos hdc] at hd ⊢
      rw [hrec] at hd; cases hd
      exact ⟨by rw [hrefs]; exact hr, t', ht', hpg⟩
    · rw [if_neg hdc] at hd ⊢
      obtain ⟨h1, t0, h0, hg0⟩ := hi.run d b hd
      have hb : b ≠ a := fun e => hdc (hi.uniq d c a (e ▸ hd) ha)
      obtain ⟨t1, h2, hf⟩ := (hoth b hb).2 t0 h0
      refine ⟨by rw [hrefs]; exact h1, t1, h2, ?_⟩
      obtain ⟨f1, f2, f3, f4, f5, f6, f7⟩ := hf
      revert hg0; unfold Pc.good; split <;> simp_all
  · intro d d' b hd hd'
    rw [hpcc] at hd hd'
    split at hd <;> split at hd'
    · simp_all
    · rename_i h1 h2; rw [hrec] at hd; cases hd; exact absurd (hi.uniq d' c a hd' ha) h2
    · rename_i h1 h2; rw [hrec] at hd'; cases hd'; exact absurd (hi.uniq d c a hd ha) h1
    · exact hi.uniq _ _ _ hd hd'
  · intro d b hd
    rw [hpcc] at hd
    by_cases hdc : d = c
    · rw [if_pos hdc] at hd
      rcases hfor b hd with h | ⟨h1, h2, t0, h3⟩
      · obtain ⟨h1, t0, h0⟩ := hi.foreign c b h
        refine ⟨?_, hsome b t0 h0⟩
        cases h2 : s'.glock b with
        | true => rfl
        | false => exact absurd hd (hgl b h2 h1).2
      · exact ⟨h2, hsome b t0 h3⟩
    · rw [if_neg hdc] at hd
      obtain ⟨h1, t0, h0⟩ := hi.foreign d b hd
      refine ⟨?_, hsome b t0 h0⟩
      cases h2 : s'.glock b with
      | true => rfl
      | false => exact absurd (hi.funiq d c b hd (hgl b h2 h1).1) hdc
  · intro d d' b hd hd'
    rw [hpcc] at hd hd'
    have key : ∀ e, e ≠ c → (s.pc e).foreign = some b → p.foreign = some b → False := by
      intro e he h1 h2
      rcases hfor b h2 with h | ⟨h3, _⟩
      · exact he (hi.funiq e c b h1 h)
      · rw [(hi.foreign e b h1).1] at h3; cases h3
    split at hd <;> split at hd'
    · simp_all
    · rename_i h1 h2; exact (key d' h2 hd' hd).elim
    · rename_i h1 h2; exact (key d h1 hd hd').elim
    · exact hi.funiq _ _ _ hd hd'
  · intro d a' b r hd
    rw [hpcc] at hd
    split at hd
    · exact hcook _ _ _ hd
    · exact hi.cook _ _ _ _ hd
  · intro k n h hm
    rcases hmsg k n h hm with h1 | ⟨_, h2, h3⟩
    · have := hi.tick k n h h1; omega
    · have := hi.ctr; omega
  · intro b t1 h1
    by_cases hb : b = a
    · subst hb; rw [ht'] at h1; cases h1; exact hgood'
    · obtain ⟨t0, h0, f1, f2, f3, f4, f5, f6, f7⟩ := hback b t1 hb h1
      have g := hi.att b t0 h0
      exact ⟨by have := g.lt; omega, by rw [f1, f2, f7]; exact g.init, by rw [f2, f7]; exact g.cookie,
        by rw [f3, f5, f6, f7]; exact g.hash⟩
  · intro b n h t1 hm h1
    by_cases hb : b = a
    · subst hb; rw [ht'] at h1; cases h1
      rcases hcase with ⟨h0, _⟩ | ⟨h0, _, _, h4⟩ | ⟨h0, h4, _⟩
      · exact .inl h0
      · rw [h0]; exact hi.last b n h t (h4 n h hm) ht
      · right
        rcases hmsg b n h hm with h5 | ⟨_, h5, _⟩
        · have := (hi.tick b n h h5).2; omega
        · omega
    · obtain ⟨t0, h0, f1, f2, f3, f4, f5, f6, f7⟩ := hback b t1 hb h1
      rw [f1]
      rcases hmsg b n h hm with h5 | ⟨h5, _⟩
      · exact hi.last b n h t0 h5 h0
      · exact absurd h5 hb
  · intro b n h t1 hm h1 hn
    by_cases hb : b = a
    · subst hb; rw [ht'] at h1; cases h1
      rcases hcase with ⟨h0, h4⟩ | ⟨h0, h2, h3, h4⟩ | ⟨h0, h4, h5⟩
      · have := (hi.tick b n h (h4 n h hm)).1; omega
      · rw [h2, h3]; exact hi.same b n h t (h4 n h hm) ht (by omega)
      · rw [← hn, h0] at hm
        exact h5 h hm (hnew h)
    · obtain ⟨t0, h0, f1, f2, f3, f4, f5, f6, f7⟩ := hback b t1 hb h1
      rw [f4, f5]
      rcases hmsg b n h hm with h5 | ⟨h5, _⟩
      · exact hi.same b n h t0 h5 h0 (by omega)
      · exact absurd h5 hb
  · have := hi.ctr; omega

end Verif.Sign
