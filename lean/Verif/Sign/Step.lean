import Verif.Sign.Inv

/-! Every step preserves the invariants. -/

namespace Verif.Sign

theorem msg_keep {s s' : State} {c : Nat} {p : Pc} (hpc : s'.pc = upd s.pc c p) (hq : s'.reqs = s.reqs)
    (hr : ∀ r ∈ s'.resps, r ∈ s.resps) (hh : ∀ r, p.held = some r → (s.pc c).held = some r ∨ r ∈ s.resps)
    {k n h : Nat} (hm : s'.msg k n h) : s.msg k n h := by
  rcases hm with h1 | ⟨l, h1⟩ | ⟨d, l, h1⟩
  · exact .inl (hq ▸ h1)
  · exact .inr (.inl ⟨l, hr _ h1⟩)
  · rw [hpc] at h1
    unfold upd at h1
    split at h1
    · rcases hh _ h1 with h2 | h2
      · exact .inr (.inr ⟨c, l, h2⟩)
      · exact .inr (.inl ⟨l, h2⟩)
    · exact .inr (.inr ⟨d, l, h1⟩)

/-- A step of CPU `c` without a new request and without taking or releasing a granule's lock. -/
theorem inv_keep {s s' : State} {c a : Nat} {p : Pc} (hi : Inv s) (ha : (s.pc c).rec? = some a)
    (hpc : s'.pc = upd s.pc c p) (hrefs : s'.refs = s.refs) (hctr : s.ctr ≤ s'.ctr) (hrec : p.rec? = some a)
    (hq : s'.reqs = s.reqs) (hr : ∀ r ∈ s'.resps, r ∈ s.resps)
    (hh : ∀ r, p.held = some r → (s.pc c).held = some r ∨ r ∈ s.resps)
    (hfor : p.foreign = none ∨ p.foreign = (s.pc c).foreign) (hgl : s'.glock = s.glock)
    (hcook : ∀ a b r, (p = .write1 a b r ∨ p = .write2 a b r ∨ p = .write3 a b r) → r.cookie = b)
    (hoth : ∀ b, b ≠ a → (s.recs b = none → s'.recs b = none) ∧
      ∀ t, s.recs b = some t → ∃ t', s'.recs b = some t' ∧ t.Frame t')
    (hown : ∀ t, s.recs a = some t → (s.pc c).good t → t.Good a s.ctr → ∃ t', s'.recs a = some t' ∧
      t'.Good a s'.ctr ∧ p.good t' ∧
      (t'.ctx.ticket = 0 ∨ (t'.ctx.ticket = t.ctx.ticket ∧ t'.want = t.want ∧ t'.ctx.queued = t.ctx.queued) ∨
       (t'.ctx.ticket = s.ctr ∧ s.ctr < s'.ctr))) : Inv s' := by
  have hm : ∀ k n h, s'.msg k n h → s.msg k n h := fun k n h => msg_keep hpc hq hr hh
  refine inv_cpu hi ha hpc hrefs hctr hrec ?_ ?_ hcook (fun k n h h1 => .inl (hm k n h h1)) hoth ?_
  · intro b hb
    rcases hfor with h | h
    · rw [h] at hb; cases hb
    · exact .inl (h ▸ hb)
  · intro b h1 h2; rw [hgl, h2] at h1; cases h1
  · intro t h1 h2 h3
    obtain ⟨t', h4, h5, h6, h7⟩ := hown t h1 h2 h3
    refine ⟨t', h4, h5, h6, ?_⟩
    rcases h7 with h | ⟨h, h', h''⟩ | ⟨h, h'⟩
    · exact .inl ⟨h, fun n h => hm a n h⟩
    · exact .inr (.inl ⟨h, h', h'', fun n h => hm a n h⟩)
    · exact .inr (.inr ⟨h, h', fun x hx hx' => absurd (hm _ _ _ hx) hx'⟩)

theorem frame_refl (t : Att) : t.Frame t := ⟨rfl, rfl, rfl, rfl, rfl, rfl, rfl⟩

theorem foreign_run {a b : Nat} {p : Pc} (hp : p.foreign = some b) (ha : p.rec? = some a) : b ≠ a := by
  cases p <;> simp_all [Pc.foreign, Pc.rec?]

macro "sgo" : tactic => `(tactic| simp only [State.go, State.att, State.ctx, release])

/-- Other RECs when only `a` is changed. -/
theorem oth_self {s : State} {a : Nat} {v : Option Att} {r : Nat → Option Att} (h : r = upd s.recs a v) (b : Nat)
    (hb : b ≠ a) : (s.recs b = none → r b = none) ∧ ∀ t, s.recs b = some t → ∃ t', r b = some t' ∧ t.Frame t' := by
  subst h
  refine ⟨fun h => by rw [upd, if_neg hb]; exact h, fun t h => ⟨t, by rw [upd, if_neg hb]; exact h, frame_refl t⟩⟩

theorem inv_acquire {s s' : State} {c a b : Nat} {p : Pc} (hi : Inv s) (ha : (s.pc c).rec? = some a)
    (hb : b = a ∨ ∃ t, s.recs b = some t)
    (hrec : p.rec? = some a) (hh : ∀ r, p.held = some r → (s.pc c).held = some r)
    (hfor : p.foreign = (s.pc c).foreign)
    (hcook : ∀ a b r, (p = .write1 a b r ∨ p = .write2 a b r ∨ p = .write3 a b r) → r.cookie = b)
    (hgood : ∀ t, (s.pc c).good t → p.good { t with ctx := { t.ctx with lock := true } })
    (h : acquire s b (fun s => .ok (s.go c p)) = .ok s') : Inv s' := by
  unfold acquire at h
  split at h
  · cases h
  split at h
  · cases h
  rename_i t0 ht0 _
  cases h
  refine inv_keep (p := p) hi ha rfl rfl (Nat.le_refl _) hrec rfl (fun _ h => h) (fun r h => .inl (hh r h)) (.inr hfor) rfl
    hcook ?_ ?_
  · intro d hd
    sgo
    by_cases e : d = b
    · subst e; simp [upd, ht0, Att.Frame]
    · simp only [upd, if_neg e]; exact ⟨id, fun t h => ⟨t, h, frame_refl t⟩⟩
  · intro t h1 h2 h3
    sgo
    by_cases e : a = b
    · subst e
      refine ⟨{ t with ctx := { t.ctx with lock := true } }, by simp only [upd, if_pos, h1]; rfl,
        ⟨h3.lt, h3.init, h3.cookie, h3.hash⟩, hgood t h2, .inr (.inl ⟨rfl, rfl, rfl⟩)⟩
    · refine ⟨t, by simp only [upd, if_neg e, h1], h3, ?_, .inr (.inl ⟨rfl, rfl, rfl⟩)⟩
      have := hgood t h2
      revert this; unfold Pc.good; split <;> exact id

/-- A step that changes only the data of the REC that runs. -/
theorem inv_self {s s' : State} {c a : Nat} {p : Pc} {f : Att → Att} (hi : Inv s) (ha : (s.pc c).rec? = some a)
    (hpc : s'.pc = upd s.pc c p) (hrefs : s'.refs = s.refs) (hctr : s.ctr ≤ s'.ctr) (hrec : p.rec? = some a)
    (hq : s'.reqs = s.reqs) (hr : ∀ r ∈ s'.resps, r ∈ s.resps)
    (hh : ∀ r, p.held = some r → (s.pc c).held = some r ∨ r ∈ s.resps)
    (hfor : p.foreign = none ∨ p.foreign = (s.pc c).foreign) (hgl : s'.glock = s.glock)
    (hcook : ∀ a b r, (p = .write1 a b r ∨ p = .write2 a b r ∨ p = .write3 a b r) → r.cookie = b)
    (hrecs : s'.recs = upd s.recs a ((s.recs a).map f))
    (hown : ∀ t, s.recs a = some t → (s.pc c).good t → t.Good a s.ctr → (f t).Good a s'.ctr ∧ p.good (f t) ∧
      ((f t).ctx.ticket = 0 ∨
       ((f t).ctx.ticket = t.ctx.ticket ∧ (f t).want = t.want ∧ (f t).ctx.queued = t.ctx.queued) ∨
       ((f t).ctx.ticket = s.ctr ∧ s.ctr < s'.ctr))) : Inv s' := by
  refine inv_keep hi ha hpc hrefs hctr hrec hq hr hh hfor hgl hcook (oth_self hrecs) ?_
  intro t h1 h2 h3
  refine ⟨f t, by rw [hrecs, upd, if_pos rfl, h1]; rfl, hown t h1 h2 h3⟩

theorem good_mono {t : Att} {a n m : Nat} (h : t.Good a n) (hnm : n ≤ m) : t.Good a m :=
  ⟨by have := h.lt; omega, h.init, h.cookie, h.hash⟩

/-- A step that changes only where the CPU is, the shared lock and EL3's responses. -/
theorem inv_move {s s' : State} {c a : Nat} {p : Pc} (hi : Inv s) (ha : (s.pc c).rec? = some a)
    (hpc : s'.pc = upd s.pc c p) (hrefs : s'.refs = s.refs) (hctr : s.ctr ≤ s'.ctr) (hrec : p.rec? = some a)
    (hq : s'.reqs = s.reqs) (hr : ∀ r ∈ s'.resps, r ∈ s.resps)
    (hh : ∀ r, p.held = some r → (s.pc c).held = some r ∨ r ∈ s.resps)
    (hfor : p.foreign = none ∨ p.foreign = (s.pc c).foreign) (hgl : s'.glock = s.glock)
    (hcook : ∀ a b r, (p = .write1 a b r ∨ p = .write2 a b r ∨ p = .write3 a b r) → r.cookie = b)
    (hrecs : s'.recs = s.recs)
    (hgood : ∀ t, s.recs a = some t → (s.pc c).good t → p.good t) : Inv s' := by
  refine inv_keep hi ha hpc hrefs hctr hrec hq hr hh hfor hgl hcook ?_ ?_
  · intro b _; rw [hrecs]; exact ⟨id, fun t h => ⟨t, h, frame_refl t⟩⟩
  · intro t h1 h2 h3
    exact ⟨t, by rw [hrecs]; exact h1, good_mono h3 hctr, hgood t h1 h2, .inr (.inl ⟨rfl, rfl, rfl⟩)⟩

theorem att_att (s : State) (a : Nat) (f g : Att → Att) : (s.att a f).att a g = s.att a (g ∘ f) := by
  simp only [State.att]
  congr 1
  funext b
  by_cases h : b = a
  · subst h; simp [upd]
  · simp [upd, h]

theorem ctx_att (s : State) (a : Nat) (f : Ctx → Ctx) : s.ctx a f = s.att a fun t => { t with ctx := f t.ctx } := rfl

theorem inv_tokenInit {s s' : State} {c a h : Nat} {t : Att} (hi : Inv s) (hp : s.pc c = .run a)
    (ht : s.recs a = some t) (hs : tokenInit s c a h t = .ok s') : Inv s' := by
  have ha : (s.pc c).rec? = some a := by rw [hp]; rfl
  have hc := hi.ctr
  unfold tokenInit at hs
  split at hs
  · cases hs
    refine inv_self hi ha rfl rfl (Nat.le_refl _) rfl rfl (fun _ h => h) (by simp [Pc.held]) (.inl rfl) rfl (by simp)
      rfl ?_
    intro t h1 h2 h3
    exact ⟨⟨hc, by simp, by simp, by simp⟩, ⟨rfl, rfl⟩, .inl rfl⟩
  · rename_i hph
    cases hs
    refine inv_move hi ha rfl rfl (Nat.le_refl _) rfl rfl (fun _ h => h) (by simp [Pc.held]) (.inl rfl) rfl (by simp)
      rfl ?_
    intro t1 h1 h2
    rw [ht] at h1; cases h1
    exact (Decidable.not_not.mp hph : t.phase = .init)

theorem inv_init2 {s s' : State} {c a h : Nat} (hi : Inv s) (hp : s.pc c = .init2 a h)
    (hs : init2 s c a h = .ok s') : Inv s' := by
  have ha : (s.pc c).rec? = some a := by rw [hp]; rfl
  have hc := hi.ctr
  unfold init2 release at hs
  rw [ctx_att, ctx_att, att_att, att_att] at hs
  cases hs
  refine inv_self hi ha rfl rfl (Nat.le_refl _) rfl rfl (fun _ h => h) (by simp [Pc.held]) (.inl rfl) rfl (by simp)
    rfl ?_
  intro t h1 h2 h3
  exact ⟨⟨hc, fun _ => ⟨rfl, rfl⟩, by simp, by simp⟩, rfl, .inl rfl⟩

theorem inv_init3 {s s' : State} {c a h : Nat} {fail : Bool} (hi : Inv s) (hp : s.pc c = .init3 a h)
    (hs : init3 s c a h fail = .ok s') : Inv s' := by
  have ha : (s.pc c).rec? = some a := by rw [hp]; rfl
  unfold init3 at hs
  split at hs
  · cases hs
    exact inv_move hi ha rfl rfl (Nat.le_refl _) rfl rfl (fun _ h => h) (by simp [Pc.held]) (.inl rfl) rfl (by simp)
      rfl (fun _ _ _ => trivial)
  · cases hs
    refine inv_self hi ha rfl rfl (Nat.le_refl _) rfl rfl (fun _ h => h) (by simp [Pc.held]) (.inl rfl) rfl (by simp)
      rfl ?_
    intro t h1 h2 h3
    rw [hp] at h2
    have h4 := h3.init h2
    exact ⟨⟨h3.lt, by simp, fun _ => h4.2, by simp⟩, trivial, .inl h4.1⟩

theorem inv_sign2 {s s' : State} {c a : Nat} {t : Att} (hi : Inv s) (hp : s.pc c = .sign2 a)
    (ht : s.recs a = some t) (hs : sign2 s c a t = .ok s') : Inv s' := by
  have ha : (s.pc c).rec? = some a := by rw [hp]; rfl
  unfold sign2 at hs
  by_cases hst : t.started = true
  · rw [if_pos hst] at hs
    split at hs <;> cases hs <;>
    refine inv_move hi ha rfl rfl (Nat.le_refl _) rfl rfl (fun _ h => h) (by simp [Pc.held]) (.inl rfl) rfl (by simp)
      rfl ?_ <;>
    · intro t1 h1 h2
      rw [ht] at h1; cases h1; rw [hp] at h2
      exact ⟨h2, hst⟩
  · rw [if_neg hst] at hs
    split at hs <;> cases hs <;>
    refine inv_self hi ha rfl rfl (Nat.le_refl _) rfl rfl (fun _ h => h) (by simp [Pc.held]) (.inl rfl) rfl (by simp)
      rfl ?_ <;>
    · intro t1 h1 h2 h3
      rw [hp] at h2
      exact ⟨⟨h3.lt, h3.init, h3.cookie, fun _ _ => rfl⟩, ⟨h2, rfl⟩, .inr (.inl ⟨rfl, rfl, rfl⟩)⟩

theorem inv_sign4 {s s' : State} {c a : Nat} {t : Att} {e : El3} (hi : Inv s) (hp : s.pc c = .sign4 a)
    (ht : s.recs a = some t) (hs : sign4 s c a t e = .ok s') : Inv s' := by
  have ha : (s.pc c).rec? = some a := by rw [hp]; rfl
  have hgt := hi.att a t ht
  obtain ⟨_, t1, h1, h2⟩ := hi.run c a ha
  rw [ht] at h1; cases h1; rw [hp] at h2
  unfold sign4 release at hs
  dsimp only at hs
  split at hs
  · cases hs
    refine inv_cpu (p := .sign5 a) hi ha rfl rfl (Nat.le_succ _) rfl (by simp [Pc.foreign])
      (fun b h1 h2 => by
        have h1 : s.glock b = false := h1
        rw [h1] at h2; cases h2) (by simp) ?_ (oth_self rfl) ?_
    · intro k n h hm
      rcases hm with h1 | ⟨l, h1⟩ | ⟨d, l, h1⟩
      · rcases List.mem_append.mp h1 with h1 | h1
        · exact .inl (.inl h1)
        · simp only [List.mem_singleton] at h1
          cases h1
          exact .inr ⟨hgt.cookie h2.1, rfl, Nat.lt_succ_self _⟩
      · exact .inl (.inr (.inl ⟨l, h1⟩))
      · left; right; right
        simp only [State.go, upd] at h1
        split at h1
        · cases h1
        · exact ⟨d, l, h1⟩
    · intro t1 h1 _ h3
      rw [ht] at h1; cases h1
      refine ⟨{ t with ctx := { t.ctx with ticket := s.ctr, queued := true } }, ?_, ?_, ?_, .inr (.inr ⟨rfl, Nat.lt_succ_self _, ?_⟩)⟩
      · sgo; simp only [upd, if_pos, ht]; rfl
      · exact ⟨Nat.lt_succ_self _, (fun h => by rw [h2.1] at h; cases h), h3.cookie, h3.hash⟩
      · exact h2
      · intro h hm hm'
        refine ⟨?_, rfl⟩
        rcases hm with h1 | ⟨l, h1⟩ | ⟨d, l, h1⟩
        · rcases List.mem_append.mp h1 with h1 | h1
          · exact absurd (.inl h1) hm'
          · simp only [List.mem_singleton] at h1
            cases h1
            exact h3.hash h2.1 h2.2
        · exact absurd (.inr (.inl ⟨l, h1⟩)) hm'
        · simp only [State.go, upd] at h1
          split at h1
          · cases h1
          · exact absurd (.inr (.inr ⟨d, l, h1⟩)) hm'
  · cases hs
    refine inv_self hi ha rfl rfl (Nat.le_succ _) rfl rfl (fun _ h => h) (by simp [Pc.held]) (.inl rfl) rfl (by simp)
      rfl ?_
    intro t1 h1 _ h3
    rw [ht] at h1; cases h1
    exact ⟨⟨Nat.lt_succ_self _, (fun h => by rw [h2.1] at h; cases h), h3.cookie, h3.hash⟩, h2,
      .inr (.inr ⟨rfl, Nat.lt_succ_self _⟩)⟩
  · rw [ctx_att, ctx_att, att_att] at hs
    cases hs
    refine inv_self hi ha rfl rfl (Nat.le_succ _) rfl rfl (fun _ h => h) (by simp [Pc.held]) (.inl rfl) rfl (by simp)
      rfl ?_
    intro t1 h1 _ h3
    rw [ht] at h1; cases h1
    exact ⟨⟨Nat.lt_succ_self _, (fun h => by
        have h : t.phase = .init := h
        rw [h2.1] at h; cases h), h3.cookie, h3.hash⟩, trivial,
      .inr (.inr ⟨rfl, Nat.lt_succ_self _⟩)⟩

theorem inv_sign5 {s s' : State} {c a : Nat} {t : Att} {flag : Bool} (hi : Inv s) (hp : s.pc c = .sign5 a)
    (hs : sign5 s c a t flag = .ok s') : Inv s' := by
  have ha : (s.pc c).rec? = some a := by rw [hp]; rfl
  have key : ∀ p : Pc, p.rec? = some a → p.held = none → p.foreign = none → (∀ t, p.good t) → Inv ((release s a).go c p) := by
    intro p p1 p2 p3 p4
    refine inv_self hi ha rfl rfl (Nat.le_refl _) p1 rfl (fun _ h => h) (by simp [p2]) (.inl p3) rfl
      (by rintro a b r (h | h | h) <;> subst h <;> cases p2) rfl ?_
    intro t h1 h2 h3
    exact ⟨⟨h3.lt, h3.init, h3.cookie, h3.hash⟩, p4 _, .inr (.inl ⟨rfl, rfl, rfl⟩)⟩
  unfold sign5 at hs
  split at hs
  · cases hs
    exact key _ rfl rfl rfl (fun _ => trivial)
  split at hs
  · split at hs
    · unfold release at hs
      rw [ctx_att, att_att] at hs
      cases hs
      refine inv_self hi ha rfl rfl (Nat.le_refl _) rfl rfl (fun _ h => h) (by simp [Pc.held]) (.inl rfl) rfl (by simp)
        rfl ?_
      intro t h1 h2 h3
      exact ⟨⟨h3.lt, by simp, by simp, by simp⟩, trivial, .inr (.inl ⟨rfl, rfl, rfl⟩)⟩
    · cases hs
  · cases hs
    split
    · exact key _ rfl rfl rfl (fun _ => trivial)
    · exact key _ rfl rfl rfl (fun _ => trivial)

theorem inv_pull2 {s s' : State} {c a : Nat} {e : El3} (hi : Inv s) (hp : s.pc c = .pull2 a)
    (hs : pull2 s c a e = .ok s') : Inv s' := by
  have ha : (s.pc c).rec? = some a := by rw [hp]; rfl
  unfold pull2 at hs
  split at hs
  · cases hs
    exact inv_move hi ha rfl rfl (Nat.le_refl _) rfl rfl (fun _ h => h) (by simp [Pc.held]) (.inl rfl) rfl (by simp)
      rfl (fun _ _ _ => trivial)
  · cases hs
    exact inv_move hi ha rfl rfl (Nat.le_refl _) rfl rfl (fun _ h => h) (by simp [Pc.held]) (.inl rfl) rfl (by simp)
      rfl (fun _ _ _ => trivial)
  · split at hs
    · cases hs
    · rename_i r rs hrs
      cases hs
      refine inv_move hi ha rfl rfl (Nat.le_refl _) rfl rfl (fun r h => by rw [hrs]; exact List.mem_cons_of_mem _ h)
        (fun r' h => ?_) (.inl rfl) rfl (by simp) rfl (fun _ _ _ => trivial)
      simp only [Pc.held, Option.some.injEq] at h
      right; rw [hrs, ← h]; exact List.mem_cons_self

theorem inv_findRec {s s' : State} {c a : Nat} {r : Resp} (hi : Inv s) (hp : s.pc c = .find a r)
    (hs : findRec s c a r = .ok s') : Inv s' := by
  have ha : (s.pc c).rec? = some a := by rw [hp]; rfl
  unfold findRec at hs
  split at hs
  · rename_i hca
    cases hs
    refine inv_move hi ha rfl rfl (Nat.le_refl _) rfl rfl (fun r h => h) (fun r' h => by rw [hp]; exact .inl h)
      (.inl (by simp [Pc.foreign])) rfl ?_ rfl (fun _ _ _ => trivial)
    intro a' b' r' h; simp at h; obtain ⟨_, rfl, rfl⟩ := h; exact hca
  · rename_i hca
    split at hs
    · cases hs
      exact inv_move hi ha rfl rfl (Nat.le_refl _) rfl rfl (fun _ h => h) (by simp [Pc.held]) (.inl rfl) rfl (by simp)
        rfl (fun _ _ _ => trivial)
    · rename_i t0 ht0
      split at hs
      · cases hs
      rename_i hgl
      cases hs
      have hm : ∀ k n h, State.msg (State.go { s with glock := upd s.glock r.cookie true } c (.write1 a r.cookie r)) k n h →
          s.msg k n h :=
        fun k n h hm => by
          refine msg_keep (c := c) (p := .write1 a r.cookie r) ?_ ?_ ?_ ?_ hm
          exacts [rfl, rfl, fun _ h => h, fun r' h => by rw [hp]; exact .inl h]
      refine inv_cpu (p := .write1 a r.cookie r) hi ha rfl rfl (Nat.le_refl _) rfl ?_ ?_ ?_
        (fun k n h h1 => .inl (hm k n h h1)) ?_ ?_
      · intro b hb
        right
        simp only [Pc.foreign] at hb
        rw [if_neg hca] at hb; cases hb
        exact ⟨by simpa using hgl, by simp [State.go, upd], t0, ht0⟩
      · intro b h1 h2
        simp only [State.go, upd] at h1
        split at h1
        · cases h1
        · rw [h2] at h1; cases h1
      · intro a' b' r' h; simp at h; obtain ⟨_, rfl, rfl⟩ := h; rfl
      · intro b _; exact ⟨id, fun t h => ⟨t, h, frame_refl t⟩⟩
      · intro t h1 h2 h3
        exact ⟨t, h1, h3, trivial, .inr (.inl ⟨rfl, rfl, rfl, fun n h => hm a n h⟩)⟩

/-- A change of flags and buffers of `b`, and of the buffer of the REC that runs. -/
theorem inv_write {s s' : State} {c a b : Nat} {p : Pc} (hi : Inv s) (ha : (s.pc c).rec? = some a)
    (hpc : s'.pc = upd s.pc c p) (hrefs : s'.refs = s.refs) (hctr : s'.ctr = s.ctr) (hrec : p.rec? = some a)
    (hq : s'.reqs = s.reqs) (hr : s'.resps = s.resps)
    (hh : ∀ r, p.held = some r → (s.pc c).held = some r)
    (hfor : p.foreign = none ∨ p.foreign = (s.pc c).foreign) (hgl : s'.glock = s.glock)
    (hcook : ∀ a b r, (p = .write1 a b r ∨ p = .write2 a b r ∨ p = .write3 a b r) → r.cookie = b)
    {f g : Att → Att} (hf : ∀ t : Att, t.Frame (f t)) (hg : ∀ t : Att, t.Frame (g t))
    (hrecs : s'.recs = ((s.att b f).att a g).recs) (hgood : ∀ t, p.good t) : Inv s' := by
  have hx : ∀ d, s'.recs d = if d = a then ((if d = b then (s.recs d).map f else s.recs d).map g)
      else if d = b then (s.recs d).map f else s.recs d := by
    intro d; rw [hrecs]; simp only [State.att, upd]
    by_cases h1 : d = a
    · subst h1; by_cases h2 : d = b
      · subst h2; simp
      · simp [h2]
    · by_cases h2 : d = b
      · subst h2; simp [h1]
      · simp [h1, h2]
  have htr : ∀ t : Att, t.Frame (g (f t)) := by
    intro t
    have h1 := hf t; have h2 := hg (f t)
    unfold Att.Frame at *
    simp_all
  have hfr : ∀ d t, s.recs d = some t → ∃ t', s'.recs d = some t' ∧ t.Frame t' := by
    intro d t h
    rw [hx, h]
    split <;> split
    · exact ⟨g (f t), rfl, htr t⟩
    · exact ⟨g t, rfl, hg t⟩
    · exact ⟨f t, rfl, hf t⟩
    · exact ⟨t, rfl, frame_refl t⟩
  refine inv_keep hi ha hpc hrefs (Nat.le_of_eq hctr.symm) hrec hq (by rw [hr]; exact fun _ h => h)
    (fun r h => .inl (hh r h)) hfor hgl hcook ?_ ?_
  · intro d _
    exact ⟨fun h => by rw [hx, h]; simp, hfr d⟩
  · intro t h1 h2 h3
    obtain ⟨t', h4, f1, f2, f3, f4, f5, f6, f7⟩ := hfr a t h1
    refine ⟨t', h4, ⟨by rw [hctr, f1]; exact h3.lt, by rw [f1, f2, f7]; exact h3.init, by rw [f2, f7]; exact h3.cookie,
        by rw [f3, f5, f6, f7]; exact h3.hash⟩, hgood t', .inr (.inl ⟨f1, f5, f4⟩)⟩

theorem att_id (s : State) (a : Nat) : s.att a id = s := by
  simp only [State.att, Option.map_id, id]
  have : upd s.recs a (s.recs a) = s.recs := by
    funext b; simp only [upd]; split
    · next h => rw [h]
    · rfl
  rw [this]

theorem inv_write2 {s s' : State} {c a b : Nat} {r : Resp} {x : Ctx} (hi : Inv s) (hp : s.pc c = .write2 a b r)
    (hs : write2 s c a b r x = .ok s') : Inv s' := by
  have ha : (s.pc c).rec? = some a := by rw [hp]; rfl
  have hck := hi.cook c a b r (.inr (.inl hp))
  unfold write2 at hs
  split at hs
  · split at hs
    · cases hs
      exact inv_move hi ha rfl rfl (Nat.le_refl _) rfl rfl (fun _ h => h) (by simp [Pc.held]) (.inr (by rw [hp]; rfl)) rfl
        (by simp) rfl (fun _ _ _ => trivial)
    · cases hs
  · split at hs
    · cases hs
      refine inv_write (b := b) (f := fun t => { t with ctx := { t.ctx with err := true } }) (g := id) hi ha rfl rfl rfl rfl
        rfl rfl (by simp [Pc.held]) (.inr (by rw [hp]; rfl)) rfl (by simp) (fun t => ⟨rfl, rfl, rfl, rfl, rfl, rfl, rfl⟩)
        frame_refl ?_ (fun _ => trivial)
      rw [att_id]; rfl
    · cases hs
      refine inv_move hi ha rfl rfl (Nat.le_refl _) rfl rfl (fun _ h => h) (fun r' h => by rw [hp]; exact .inl h)
        (.inr (by rw [hp]; rfl)) rfl ?_ rfl (fun _ _ _ => trivial)
      intro a' b' r' h; simp at h; obtain ⟨_, rfl, rfl⟩ := h; exact hck

theorem inv_write3 {s s' : State} {c a b : Nat} {r : Resp} {x : Ctx} (hi : Inv s) (hp : s.pc c = .write3 a b r)
    (hs : write3 s c a b r x = .ok s') : Inv s' := by
  have ha : (s.pc c).rec? = some a := by rw [hp]; rfl
  unfold write3 at hs
  split at hs
  · cases hs
  · cases hs
    exact inv_write (b := b) (f := fun t => { t with ctx := { t.ctx with sigLen := r.len } })
      (g := fun t => { t with buf := some r.hash }) hi ha rfl rfl rfl rfl
      rfl rfl (fun r' h => by rw [hp]; exact h) (.inr (by rw [hp]; rfl)) rfl (by simp)
      (fun t => ⟨rfl, rfl, rfl, rfl, rfl, rfl, rfl⟩) (fun t => ⟨rfl, rfl, rfl, rfl, rfl, rfl, rfl⟩) rfl (fun _ => trivial)

theorem inv_write5 {s s' : State} {c a b : Nat} (hi : Inv s) (hp : s.pc c = .write5 a b)
    (hs : Res.ok ((if b = a then release s b else { release s b with glock := upd (release s b).glock b false }).go c
      (.run a)) = .ok s') : Inv s' := by
  have ha : (s.pc c).rec? = some a := by rw [hp]; rfl
  have key : Inv ((release s b).go c (.run a)) := by
    refine inv_write (b := b) (f := fun t => { t with ctx := { t.ctx with lock := false } }) (g := id) hi ha rfl rfl rfl rfl
        rfl rfl (by simp [Pc.held]) (.inl rfl) rfl (by simp) (fun t => ⟨rfl, rfl, rfl, rfl, rfl, rfl, rfl⟩)
        frame_refl ?_ (fun _ => trivial)
    rw [att_id]; rfl
  split at hs
  · cases hs; exact key
  · rename_i hba
    cases hs
    refine ⟨key.run, key.uniq, ?_, key.funiq, key.cook, key.tick, key.att, key.last, key.same, key.ctr⟩
    intro d b' hd
    obtain ⟨h1, h2⟩ := key.foreign d b' hd
    refine ⟨?_, h2⟩
    by_cases e : b' = b
    · subst e
      exfalso
      simp only [State.go, upd] at hd
      split at hd
      · cases hd
      · rename_i hdc
        exact hdc (hi.funiq d c b' hd (by rw [hp]; simp [Pc.foreign, hba]))
    · simp only [State.go, upd, if_neg e]; exact h1

theorem inv_cpuStep {s s' : State} {c : Nat} {e : El3} {flag : Bool} (hi : Inv s)
    (hs : cpuStep s c e flag = .ok s') : Inv s' := by
  unfold cpuStep at hs
  split at hs
  · cases hs
  · cases hs
  · rename_i a h hp
    exact inv_acquire hi (by rw [hp]; rfl) (.inl rfl) rfl (by simp [Pc.held]) (by rw [hp]; rfl) (by simp)
      (by rw [hp]; exact fun _ h => h) hs
  · rename_i a h hp; exact inv_init2 hi hp hs
  · rename_i a h hp; exact inv_init3 hi hp hs
  · rename_i a hp
    exact inv_acquire hi (by rw [hp]; rfl) (.inl rfl) rfl (by simp [Pc.held]) (by rw [hp]; rfl) (by simp)
      (by rw [hp]; exact fun _ h => h) hs
  · rename_i a hp
    split at hs
    · cases hs
    · rename_i t ht; exact inv_sign2 hi hp ht hs
  · rename_i a hp
    split at hs
    · cases hs
    · cases hs
      exact inv_move (a := a) hi (by rw [hp]; rfl) rfl rfl (Nat.le_refl _) rfl rfl (fun _ h => h) (by simp [Pc.held]) (.inl rfl) rfl
        (by simp) rfl (fun t _ h => by rw [hp] at h; exact h)
  · rename_i a hp
    split at hs
    · cases hs
    · rename_i t ht; exact inv_sign4 hi hp ht hs
  · rename_i a hp
    split at hs
    · cases hs
    · rename_i t ht; exact inv_sign5 hi hp hs
  · rename_i a hp
    split at hs
    · cases hs
    · cases hs
      exact inv_move (a := a) hi (by rw [hp]; rfl) rfl rfl (Nat.le_refl _) rfl rfl (fun _ h => h) (by simp [Pc.held]) (.inl rfl) rfl
        (by simp) rfl (fun t _ h => trivial)
  · rename_i a hp; exact inv_pull2 hi hp hs
  · rename_i a r hp; exact inv_findRec hi hp hs
  · rename_i a b r hp
    have hck := hi.cook c a b r (.inl hp)
    refine inv_acquire (p := .write2 a b r) hi (a := a) (by rw [hp]; rfl) ?_ rfl (fun r' h => by rw [hp]; exact h) (by rw [hp]; rfl) ?_
      (fun _ _ => trivial) hs
    · by_cases h : b = a
      · exact .inl h
      · exact .inr (hi.foreign c b (by rw [hp]; simp [Pc.foreign, h])).2
    · intro a' b' r' h; simp at h; obtain ⟨_, rfl, rfl⟩ := h; exact hck
  · rename_i a b r hp
    split at hs
    · cases hs
    · exact inv_write2 hi hp hs
  · rename_i a b r hp
    split at hs
    · cases hs
    · exact inv_write3 hi hp hs
  · rename_i a b r hp
    cases hs
    refine inv_write (a := a) (b := b) (f := fun t => { t with ctx := { t.ctx with valid := true } }) (g := id) hi (by rw [hp]; rfl) rfl rfl
        rfl rfl rfl rfl (by simp [Pc.held]) (.inr (by rw [hp]; rfl)) rfl (by simp)
        (fun t => ⟨rfl, rfl, rfl, rfl, rfl, rfl, rfl⟩) frame_refl ?_ (fun _ => trivial)
    rw [att_id]; rfl
  · rename_i a b hp; exact inv_write5 hi hp hs

theorem inv_step {s s' : State} {o : Op} (hi : Inv s) (hs : step s o = .ok s') : Inv s' := by
  cases o with
  | create a =>
    simp only [step] at hs
    split at hs
    · cases hs
    rename_i hn
    cases hs
    refine ⟨?_, hi.uniq, ?_, hi.funiq, hi.cook, hi.tick, ?_, ?_, ?_, hi.ctr⟩
    · intro c b h
      obtain ⟨h1, t, h2, h3⟩ := hi.run c b h
      refine ⟨h1, t, ?_, h3⟩
      simp only [upd]; rw [if_neg (by rintro rfl; rw [hn] at h2; cases h2)]; exact h2
    · intro c b h
      obtain ⟨h1, t, h2⟩ := hi.foreign c b h
      refine ⟨h1, t, ?_⟩
      simp only [upd]; rw [if_neg (by rintro rfl; rw [hn] at h2; cases h2)]; exact h2
    · intro b t h
      simp only [upd] at h
      split at h
      · cases h; exact ⟨hi.ctr, by simp, by simp, by simp⟩
      · exact hi.att b t h
    · intro b n h t hm ht
      simp only [upd] at ht
      split at ht
      · cases ht; exact .inl rfl
      · exact hi.last b n h t hm ht
    · intro b n h t hm ht hn
      simp only [upd] at ht
      split at ht
      · cases ht; have h1 := (hi.tick b n h hm).1; simp at hn; omega
      · exact hi.same b n h t hm ht hn
  | destroy a =>
    simp only [step] at hs
    split at hs
    · cases hs
    rename_i hn
    simp only [Bool.or_eq_true, not_or, Bool.not_eq_true] at hn
    cases hs
    refine ⟨?_, hi.uniq, ?_, hi.funiq, hi.cook, hi.tick, ?_, ?_, ?_, hi.ctr⟩
    · intro c b h
      obtain ⟨h1, t, h2, h3⟩ := hi.run c b h
      refine ⟨h1, t, ?_, h3⟩
      simp only [upd]; rw [if_neg (by rintro rfl; rw [hn.2] at h1; cases h1)]; exact h2
    · intro c b h
      obtain ⟨h1, t, h2⟩ := hi.foreign c b h
      refine ⟨h1, t, ?_⟩
      simp only [upd]; rw [if_neg (by rintro rfl; rw [hn.1] at h1; cases h1)]; exact h2
    · intro b t h
      simp only [upd] at h
      split at h
      · cases h
      · exact hi.att b t h
    · intro b n h t hm ht
      simp only [upd] at ht
      split at ht
      · cases ht
      · exact hi.last b n h t hm ht
    · intro b n h t hm ht hn
      simp only [upd] at ht
      split at ht
      · cases ht
      · exact hi.same b n h t hm ht hn
  | enter c a =>
    simp only [step] at hs
    split at hs
    · rename_i t hp ht
      split at hs
      · cases hs
      rename_i hn
      simp only [Bool.or_eq_true, not_or, Bool.not_eq_true] at hn
      cases hs
      have hm : ∀ k n h, State.msg (State.go { s with refs := upd s.refs a true } c (.run a)) k n h → s.msg k n h :=
        fun k n h hm => by
          refine msg_keep (c := c) (p := .run a) ?_ ?_ ?_ ?_ hm
          exacts [rfl, rfl, fun _ h => h, by simp [Pc.held]]
      refine ⟨?_, ?_, ?_, ?_, ?_, fun k n h h1 => hi.tick k n h (hm k n h h1), hi.att,
        fun b n h t h1 h2 => hi.last b n h t (hm b n h h1) h2, fun b n h t h1 h2 => hi.same b n h t (hm b n h h1) h2, hi.ctr⟩
      · intro d b h
        simp only [State.go, upd] at h ⊢
        split at h
        · cases h; rename_i e; simp only [if_pos, e]; exact ⟨trivial, t, ht, trivial⟩
        · rename_i e
          obtain ⟨h1, t, h2, h3⟩ := hi.run d b h
          rw [if_neg e]
          refine ⟨?_, t, h2, h3⟩
          split
          · rfl
          · exact h1
      · intro d d' b h h'
        simp only [State.go, upd] at h h'
        split at h <;> split at h'
        · simp_all
        · cases h; rw [(hi.run d' a h').1] at hn; simp at hn
        · cases h'; rw [(hi.run d a h).1] at hn; simp at hn
        · exact hi.uniq _ _ _ h h'
      · intro d b h
        simp only [State.go, upd] at h
        split at h
        · cases h
        · exact hi.foreign d b h
      · intro d d' b h h'
        simp only [State.go, upd] at h h'
        split at h <;> split at h'
        · cases h
        · cases h
        · cases h'
        · exact hi.funiq _ _ _ h h'
      · intro d a' b r h
        simp only [State.go, upd] at h
        split at h
        · simp at h
        · exact hi.cook _ _ _ _ h
    · cases hs
  | exit c =>
    simp only [step] at hs
    split at hs
    · rename_i a hp
      cases hs
      have hm : ∀ k n h, State.msg (State.go { s with refs := upd s.refs a false } c .host) k n h → s.msg k n h :=
        fun k n h hm => by
          refine msg_keep (c := c) (p := .host) ?_ ?_ ?_ ?_ hm
          exacts [rfl, rfl, fun _ h => h, by simp [Pc.held]]
      refine ⟨?_, ?_, ?_, ?_, ?_, fun k n h h1 => hi.tick k n h (hm k n h h1), hi.att,
        fun b n h t h1 h2 => hi.last b n h t (hm b n h h1) h2, fun b n h t h1 h2 => hi.same b n h t (hm b n h h1) h2, hi.ctr⟩
      · intro d b h
        simp only [State.go, upd] at h ⊢
        split at h
        · cases h
        · rename_i e
          obtain ⟨h1, t, h2, h3⟩ := hi.run d b h
          rw [if_neg e]
          refine ⟨?_, t, h2, h3⟩
          rw [if_neg]
          · exact h1
          · rintro rfl; exact e (hi.uniq d c b h (by rw [hp]; rfl))
      · intro d d' b h h'
        simp only [State.go, upd] at h h'
        split at h <;> split at h'
        · cases h
        · cases h
        · cases h'
        · exact hi.uniq _ _ _ h h'
      · intro d b h
        simp only [State.go, upd] at h
        split at h
        · cases h
        · exact hi.foreign d b h
      · intro d d' b h h'
        simp only [State.go, upd] at h h'
        split at h <;> split at h'
        · cases h
        · cases h
        · cases h'
        · exact hi.funiq _ _ _ h h'
      · intro d a' b r h
        simp only [State.go, upd] at h
        split at h
        · simp at h
        · exact hi.cook _ _ _ _ h
    · cases hs
  | tokenInit c h =>
    simp only [step] at hs
    split at hs
    · rename_i a hp
      split at hs
      · cases hs
      · rename_i t ht; exact inv_tokenInit hi hp ht hs
    · cases hs
  | tokenContinue c =>
    simp only [step] at hs
    split at hs
    · rename_i a hp
      split at hs
      · cases hs
      · rename_i t ht
        split at hs
        · rename_i hph
          cases hs
          refine inv_move (a := a) hi (by rw [hp]; rfl) rfl rfl (Nat.le_refl _) rfl rfl (fun _ h => h) (by simp [Pc.held]) (.inl rfl) rfl
            (by simp) rfl (fun t1 h1 _ => ?_)
          rw [ht] at h1; cases h1; exact hph
        · cases hs; exact hi
    · cases hs
  | cpu c e flag => exact inv_cpuStep hi hs
  | el3 i len =>
    simp only [step] at hs
    split at hs
    · cases hs
    · rename_i q hq
      cases hs
      have hm : ∀ k n h, State.msg { s with reqs := s.reqs.eraseIdx i, resps := s.resps ++ [⟨q.cookie, q.ticket, q.hash, len⟩] } k n h →
          s.msg k n h := by
        rintro k n h (h1 | ⟨l, h1⟩ | h1)
        · exact .inl (List.mem_of_mem_eraseIdx h1)
        · rcases List.mem_append.mp h1 with h1 | h1
          · exact .inr (.inl ⟨l, h1⟩)
          · simp only [List.mem_singleton] at h1
            cases h1
            exact .inl (List.mem_of_getElem? hq)
        · exact .inr (.inr h1)
      exact ⟨hi.run, hi.uniq, hi.foreign, hi.funiq, hi.cook, fun k n h h1 => hi.tick k n h (hm k n h h1), hi.att,
        fun b n h t h1 h2 => hi.last b n h t (hm b n h h1) h2, fun b n h t h1 h2 => hi.same b n h t (hm b n h h1) h2, hi.ctr⟩

theorem inv_reach {P : State → Op → Prop} {s : State} (h : ReachP P start s) : Inv s := by
  induction h with
  | start => exact inv_start
  | step _ _ hs ih => exact inv_step ih hs

end Verif.Sign
