import Verif.Sign.Step

/-! Executions in which no CPU writes a response to a REC other than the one it runs. -/

namespace Verif.Sign

/-- The step does not write a response to a REC other than the one that runs. -/
def Own (s : State) (o : Op) : Prop :=
  ∀ c e flag a r, o = .cpu c e flag → s.pc c = .find a r → s.recs r.cookie ≠ none → r.cookie = a

def Pc.own (p : Pc) (t : Att) : Prop :=
  match p with
  | .pull1 _ | .pull2 _ | .find _ _ | .write1 _ _ _ | .write2 _ _ _ | .write5 _ _ => t.phase = .sign
  | .write3 _ _ r =>
    t.phase = .sign ∧ t.want = r.hash ∧ t.ctx.queued = true ∧ t.ctx.ptr = true ∧ r.len ≤ t.ctx.sigLen
  | .write4 _ _ r => t.phase = .sign ∧ t.want = r.hash ∧ t.ctx.queued = true ∧ t.buf = some r.hash
  | _ => True

structure Att.Own (t : Att) : Prop where
  valid : t.ctx.valid = true → t.buf = some t.want ∧ t.ctx.queued = true
  len : t.ctx.sigLen ≤ sigMax
  ptr : t.ctx.ticket ≠ 0 → t.ctx.ptr = true
  started : t.phase = .sign → t.started = true → t.ctx.ptr = true
  init : t.phase = .init → t.ctx.valid = false

structure Inv2 (s : State) : Prop where
  own : ∀ c a t, (s.pc c).rec? = some a → s.recs a = some t → (s.pc c).own t
  nf : ∀ c, (s.pc c).foreign = none
  att : ∀ a t, s.recs a = some t → t.Own
  out : ∀ e ∈ s.out, e.2.2 = some e.2.1

theorem inv2_start : Inv2 start := by
  constructor <;> simp [start, Pc.rec?, Pc.foreign]

theorem inv2_cpu {s s' : State} {c a : Nat} {p : Pc} {f : Att → Att} (hi : Inv s) (h2 : Inv2 s)
    (ha : (s.pc c).rec? = some a) (hpc : s'.pc = upd s.pc c p) (hrec : p.rec? = some a) (hf : p.foreign = none)
    (hrecs : s'.recs = upd s.recs a ((s.recs a).map f))
    (hown : ∀ t, s.recs a = some t → (s.pc c).good t → t.Good a s.ctr → (s.pc c).own t → t.Own → (f t).Own ∧ p.own (f t))
    (hout : ∀ e ∈ s'.out, e ∈ s.out ∨ e.2.2 = some e.2.1) : Inv2 s' := by
  obtain ⟨hr, t, ht, hg⟩ := hi.run c a ha
  have hx := hown t ht hg (hi.att a t ht) (h2.own c a t ha ht) (h2.att a t ht)
  constructor
  · intro d b t1 hd h1
    rw [hpc] at hd ⊢; rw [hrecs] at h1
    simp only [upd] at hd h1 ⊢
    by_cases hdc : d = c
    · rw [if_pos hdc] at hd ⊢
      rw [hrec] at hd; cases hd
      rw [if_pos rfl, ht] at h1; cases h1; exact hx.2
    · rw [if_neg hdc] at hd ⊢
      have hb : b ≠ a := fun e => hdc (hi.uniq d c a (e ▸ hd) ha)
      rw [if_neg hb] at h1
      exact h2.own d b t1 hd h1
  · intro d
    rw [hpc]; simp only [upd]; split
    · exact hf
    · exact h2.nf d
  · intro b t1 h1
    rw [hrecs] at h1
    simp only [upd] at h1
    split at h1
    · rw [ht] at h1; cases h1; exact hx.1
    · exact h2.att b t1 h1
  · intro e he
    rcases hout e he with h | h
    · exact h2.out e h
    · exact h

theorem upd_map_id (r : Nat → Option Att) (a : Nat) : r = upd r a ((r a).map id) := by
  funext b; simp only [upd, Option.map_id, id]; split
  · next h => rw [h]
  · rfl

theorem inv2_move {s s' : State} {c a : Nat} {p : Pc} (hi : Inv s) (h2 : Inv2 s)
    (ha : (s.pc c).rec? = some a) (hpc : s'.pc = upd s.pc c p) (hrec : p.rec? = some a) (hf : p.foreign = none)
    (hrecs : s'.recs = s.recs)
    (hown : ∀ t, s.recs a = some t → (s.pc c).own t → p.own t) (hout : s'.out = s.out) : Inv2 s' :=
  inv2_cpu (f := id) hi h2 ha hpc hrec hf (by rw [hrecs]; exact upd_map_id _ _)
    (fun t h1 _ _ h3 h4 => ⟨h4, hown t h1 h3⟩) (fun e he => .inl (hout ▸ he))

theorem own_congr {t t' : Att} {p : Pc} (h : p.own t) (h1 : t'.phase = t.phase) (h2 : t'.want = t.want)
    (h3 : t'.ctx.queued = t.ctx.queued) (h4 : t'.ctx.ptr = t.ctx.ptr) (h5 : t'.ctx.sigLen = t.ctx.sigLen)
    (h6 : t'.buf = t.buf) : p.own t' := by
  revert h; unfold Pc.own; split <;> first | (simp only [h1, h2, h3, h4, h5, h6]; exact id) | exact id

theorem inv2_acquire {s s' : State} {c a : Nat} {p : Pc} (hi : Inv s) (h2 : Inv2 s) (ha : (s.pc c).rec? = some a)
    (hrec : p.rec? = some a) (hf : p.foreign = none) (hown : ∀ t, (s.pc c).own t → p.own t)
    (h : acquire s a (fun s => .ok (s.go c p)) = .ok s') : Inv2 s' := by
  unfold acquire at h
  split at h
  · cases h
  split at h
  · cases h
  cases h
  exact inv2_cpu hi h2 ha rfl hrec hf rfl
    (fun t _ _ _ h3 h4 => ⟨⟨h4.valid, h4.len, h4.ptr, h4.started, h4.init⟩, own_congr (hown t h3) rfl rfl rfl rfl rfl rfl⟩)
    (fun e he => .inl he)

theorem inv2_release {s s' : State} {c a : Nat} {p : Pc} (hi : Inv s) (h2 : Inv2 s) (ha : (s.pc c).rec? = some a)
    (hrec : p.rec? = some a) (hf : p.foreign = none) (hown : ∀ t, (s.pc c).good t → (s.pc c).own t → p.own t)
    (h : Res.ok ((release s a).go c p) = .ok s') : Inv2 s' := by
  cases h
  exact inv2_cpu hi h2 ha rfl hrec hf rfl
    (fun t _ hg _ h3 h4 => ⟨⟨h4.valid, h4.len, h4.ptr, h4.started, h4.init⟩, own_congr (hown t hg h3) rfl rfl rfl rfl rfl rfl⟩)
    (fun e he => .inl he)

theorem foreign_none {a b : Nat} {s : State} (h2 : Inv2 s) {c : Nat} {r : Resp}
    (h : s.pc c = .write1 a b r ∨ s.pc c = .write2 a b r ∨ s.pc c = .write3 a b r ∨ s.pc c = .write4 a b r ∨
      s.pc c = .write5 a b) : b = a := by
  have := h2.nf c
  rcases h with h | h | h | h | h <;> rw [h] at this <;> simp only [Pc.foreign] at this <;> split at this <;>
    first | assumption | cases this

theorem inv2_cpuStep {s s' : State} {c : Nat} {e : El3} {flag : Bool} (hi : Inv s) (h2 : Inv2 s)
    (hP : Own s (.cpu c e flag)) (hs : cpuStep s c e flag = .ok s') : Inv2 s' := by
  unfold cpuStep at hs
  split at hs
  · cases hs
  · cases hs
  · rename_i a h hp
    exact inv2_acquire (p := .init2 a h) hi h2 (by rw [hp]; rfl) rfl rfl (fun _ _ => trivial) hs
  · rename_i a h hp
    unfold init2 release at hs
    rw [ctx_att, ctx_att, att_att, att_att] at hs
    cases hs
    refine inv2_cpu (p := .init3 a h) hi h2 (by rw [hp]; rfl) rfl rfl rfl rfl ?_ (fun e he => .inl he)
    intro t h1 h3 h4 h5 h6
    exact ⟨⟨by simp, by simp [sigMax], by simp, by simp, by simp⟩, trivial⟩
  · rename_i a h hp
    unfold init3 at hs
    split at hs
    · cases hs
      exact inv2_move (p := .run a) hi h2 (by rw [hp]; rfl) rfl rfl rfl rfl (fun _ _ _ => trivial) rfl
    · cases hs
      refine inv2_cpu (p := .run a) hi h2 (by rw [hp]; rfl) rfl rfl rfl rfl ?_ (fun e he => .inl he)
      intro t h1 h3 h4 h5 h6
      rw [hp] at h3
      have h7 := h6.init h3
      exact ⟨⟨by simp [h7], h6.len, h6.ptr, by simp, by simp⟩, trivial⟩
  · rename_i a hp
    exact inv2_acquire (p := .sign2 a) hi h2 (by rw [hp]; rfl) rfl rfl (fun _ _ => trivial) hs
  · rename_i a hp
    split at hs
    · cases hs
    · rename_i t ht
      unfold sign2 at hs
      by_cases hst : t.started = true
      · rw [if_pos hst] at hs
        split at hs <;> cases hs <;>
        exact inv2_move (a := a) hi h2 (by rw [hp]; rfl) rfl rfl rfl rfl (fun _ _ _ => trivial) rfl
      · rw [if_neg hst] at hs
        split at hs <;> cases hs <;>
        refine inv2_cpu (a := a) hi h2 (by rw [hp]; rfl) rfl rfl rfl rfl ?_ (fun e he => .inl he) <;>
        · intro t h1 h3 h4 h5 h6
          exact ⟨⟨h6.valid, Nat.le_refl _, fun _ => rfl, fun _ _ => rfl, h6.init⟩, trivial⟩
  · rename_i a hp
    split at hs
    · cases hs
    · cases hs
      exact inv2_move (a := a) (p := .sign4 a) hi h2 (by rw [hp]; rfl) rfl rfl rfl rfl (fun _ _ _ => trivial) rfl
  · rename_i a hp
    split at hs
    · cases hs
    · rename_i t ht
      unfold sign4 release at hs
      dsimp only at hs
      split at hs
      · cases hs
        refine inv2_cpu (a := a) (p := .sign5 a) hi h2 (by rw [hp]; rfl) rfl rfl rfl rfl ?_ (fun e he => .inl he)
        intro t h1 h3 h4 h5 h6
        rw [hp] at h3
        exact ⟨⟨fun h => ⟨(h6.valid h).1, rfl⟩, h6.len, fun _ => h6.started h3.1 h3.2, h6.started, h6.init⟩, trivial⟩
      · cases hs
        refine inv2_cpu (a := a) (p := .sign5 a) hi h2 (by rw [hp]; rfl) rfl rfl rfl rfl ?_ (fun e he => .inl he)
        intro t h1 h3 h4 h5 h6
        rw [hp] at h3
        exact ⟨⟨h6.valid, h6.len, fun _ => h6.started h3.1 h3.2, h6.started, h6.init⟩, trivial⟩
      · rw [ctx_att, ctx_att, att_att] at hs
        cases hs
        refine inv2_cpu (a := a) (p := .run a) hi h2 (by rw [hp]; rfl) rfl rfl rfl rfl ?_ (fun e he => .inl he)
        intro t h1 h3 h4 h5 h6
        rw [hp] at h3
        exact ⟨⟨h6.valid, h6.len, fun _ => h6.started h3.1 h3.2, h6.started, h6.init⟩, trivial⟩
  · rename_i a hp
    split at hs
    · cases hs
    · rename_i t ht
      unfold sign5 at hs
      split at hs
      · exact inv2_release (p := .run a) hi h2 (by rw [hp]; rfl) rfl rfl (fun _ _ _ => trivial) hs
      split at hs
      · rename_i hv
        split at hs
        · unfold release at hs
          rw [ctx_att, att_att] at hs
          cases hs
          refine inv2_cpu (a := a) (p := .run a) hi h2 (by rw [hp]; rfl) rfl rfl rfl rfl ?_ ?_
          · intro t h1 h3 h4 h5 h6
            exact ⟨⟨h6.valid, h6.len, h6.ptr, by simp, by simp⟩, trivial⟩
          · intro e he
            rcases List.mem_append.mp he with h | h
            · exact .inl h
            · right
              simp only [List.mem_singleton] at h
              subst h
              exact ((h2.att a t ht).valid hv).1
        · cases hs
      · cases hs
        split
        · exact inv2_release (p := .run a) hi h2 (by rw [hp]; rfl) rfl rfl (fun _ _ _ => trivial) rfl
        · refine inv2_release (p := .pull1 a) hi h2 (by rw [hp]; rfl) rfl rfl (fun t h _ => ?_) rfl
          rw [hp] at h; exact h.1
  · rename_i a hp
    split at hs
    · cases hs
    · cases hs
      exact inv2_move (a := a) (p := .pull2 a) hi h2 (by rw [hp]; rfl) rfl rfl rfl rfl (fun _ _ h => by rw [hp] at h; exact h) rfl
  · rename_i a hp
    unfold pull2 at hs
    split at hs
    · cases hs
      exact inv2_move (a := a) (p := .run a) hi h2 (by rw [hp]; rfl) rfl rfl rfl rfl (fun _ _ _ => trivial) rfl
    · cases hs
      exact inv2_move (a := a) (p := .run a) hi h2 (by rw [hp]; rfl) rfl rfl rfl rfl (fun _ _ _ => trivial) rfl
    · split at hs
      · cases hs
      · cases hs
        exact inv2_move (a := a) hi h2 (by rw [hp]; rfl) rfl rfl rfl rfl (fun _ _ h => by rw [hp] at h; exact h) rfl
  · rename_i a r hp
    have hP := hP c e flag a r rfl hp
    unfold findRec at hs
    split at hs
    · cases hs
      refine inv2_move (a := a) (p := .write1 a a r) hi h2 (by rw [hp]; rfl) rfl rfl (by simp [Pc.foreign]) rfl
        (fun _ _ h => by rw [hp] at h; exact h) rfl
    · rename_i hca
      split at hs
      · cases hs
        exact inv2_move (a := a) (p := .run a) hi h2 (by rw [hp]; rfl) rfl rfl rfl rfl (fun _ _ _ => trivial) rfl
      · rename_i t ht
        exact absurd (hP (by rw [ht]; simp)) hca
  · rename_i a b r hp
    have hb := foreign_none h2 (.inl hp)
    subst hb
    exact inv2_acquire (p := .write2 b b r) hi h2 (by rw [hp]; rfl) rfl (by simp [Pc.foreign])
      (fun t h => by rw [hp] at h; exact h) hs
  · rename_i a b r hp
    have hb := foreign_none h2 (.inr (.inl hp))
    subst hb
    have hck := hi.cook c b b r (.inr (.inl hp))
    split at hs
    · cases hs
    · rename_i t ht
      unfold write2 at hs
      split at hs
      · split at hs
        · cases hs
          exact inv2_move (a := b) (p := .write5 b b) hi h2 (by rw [hp]; rfl) rfl rfl (by simp [Pc.foreign]) rfl
            (fun _ _ h => by rw [hp] at h; exact h) rfl
        · cases hs
      · rename_i htk
        split at hs
        · cases hs
          refine inv2_cpu (a := b) (p := .write5 b b) hi h2 (by rw [hp]; rfl) rfl rfl (by simp [Pc.foreign]) rfl ?_
            (fun e he => .inl he)
          intro t h1 h3 h4 h5 h6
          rw [hp] at h5
          exact ⟨⟨h6.valid, h6.len, h6.ptr, h6.started, h6.init⟩, h5⟩
        · rename_i hlen
          cases hs
          have htk := Decidable.not_not.mp htk
          have hm : s.msg b r.ticket r.hash := .inr (.inr ⟨c, r.len, by rw [hp, ← hck]; rfl⟩)
          have hsame := hi.same b _ _ t hm ht htk
          have htick := (hi.tick _ _ _ hm).1
          refine inv2_move (a := b) (p := .write3 b b r) hi h2 (by rw [hp]; rfl) rfl rfl (by simp [Pc.foreign]) rfl ?_ rfl
          intro t1 h1 h5
          rw [ht] at h1; cases h1
          rw [hp] at h5
          exact ⟨h5, hsame.1.symm, hsame.2, (h2.att b t ht).ptr (by omega), Nat.le_of_not_lt hlen⟩
  · rename_i a b r hp
    have hb := foreign_none h2 (.inr (.inr (.inl hp)))
    subst hb
    split at hs
    · cases hs
    · rename_i t ht
      unfold write3 at hs
      split at hs
      · cases hs
      · rw [ctx_att, att_att] at hs
        cases hs
        refine inv2_cpu (a := b) (p := .write4 b b r) hi h2 (by rw [hp]; rfl) rfl rfl (by simp [Pc.foreign]) rfl ?_
          (fun e he => .inl he)
        intro t h1 h3 h4 h5 h6
        rw [hp] at h5
        obtain ⟨g1, g2, g3, g4, g5⟩ := h5
        have := h6.len
        refine ⟨⟨fun h => ⟨by simp [g2], g3⟩, (by show r.len ≤ sigMax; omega), h6.ptr, h6.started, h6.init⟩, g1, g2, g3, rfl⟩
  · rename_i a b r hp
    have hb := foreign_none h2 (.inr (.inr (.inr (.inl hp))))
    subst hb
    cases hs
    refine inv2_cpu (a := b) (p := .write5 b b) hi h2 (by rw [hp]; rfl) rfl rfl (by simp [Pc.foreign]) rfl ?_
      (fun e he => .inl he)
    intro t h1 h3 h4 h5 h6
    rw [hp] at h5
    obtain ⟨g1, g2, g3, g4⟩ := h5
    refine ⟨⟨fun h => ⟨by simp [g4, g2], g3⟩, h6.len, h6.ptr, h6.started, fun h => ?_⟩, g1⟩
    have h : t.phase = .init := h
    rw [g1] at h; cases h
  · rename_i a b hp
    have hb := foreign_none (r := ⟨0, 0, 0, 0⟩) h2 (.inr (.inr (.inr (.inr hp))))
    subst hb
    dsimp only at hs
    rw [if_pos rfl] at hs
    exact inv2_release (p := .run b) hi h2 (by rw [hp]; rfl) rfl rfl (fun _ _ _ => trivial) hs

theorem inv2_step {s s' : State} {o : Op} (hi : Inv s) (h2 : Inv2 s) (hP : Own s o) (hs : step s o = .ok s') :
    Inv2 s' := by
  cases o with
  | create a =>
    simp only [step] at hs
    split at hs
    · cases hs
    rename_i hn
    cases hs
    refine ⟨?_, h2.nf, ?_, h2.out⟩
    · intro c b t h ht
      obtain ⟨_, t1, h1, _⟩ := hi.run c b h
      simp only [upd] at ht
      rw [if_neg (by rintro rfl; rw [hn] at h1; cases h1)] at ht
      exact h2.own c b t h ht
    · intro b t h
      simp only [upd] at h
      split at h
      · cases h; exact ⟨by simp, by simp, by simp, by simp, by simp⟩
      · exact h2.att b t h
  | destroy a =>
    simp only [step] at hs
    split at hs
    · cases hs
    cases hs
    refine ⟨?_, h2.nf, ?_, h2.out⟩
    · intro c b t h ht
      simp only [upd] at ht
      split at ht
      · cases ht
      · exact h2.own c b t h ht
    · intro b t h
      simp only [upd] at h
      split at h
      · cases h
      · exact h2.att b t h
  | enter c a =>
    simp only [step] at hs
    split at hs
    · split at hs
      · cases hs
      cases hs
      refine ⟨?_, ?_, h2.att, h2.out⟩
      · intro d b t h ht
        simp only [State.go, upd] at h ⊢
        split at h
        · rename_i e; rw [if_pos e]; trivial
        · rename_i e; rw [if_neg e]; exact h2.own d b t h ht
      · intro d
        simp only [State.go, upd]
        split
        · rfl
        · exact h2.nf d
    · cases hs
  | exit c =>
    simp only [step] at hs
    split at hs
    · cases hs
      refine ⟨?_, ?_, h2.att, h2.out⟩
      · intro d b t h ht
        simp only [State.go, upd] at h ⊢
        split at h
        · cases h
        · rename_i e; rw [if_neg e]; exact h2.own d b t h ht
      · intro d
        simp only [State.go, upd]
        split
        · rfl
        · exact h2.nf d
    · cases hs
  | tokenInit c h =>
    simp only [step] at hs
    split at hs
    · rename_i a hp
      split at hs
      · cases hs
      · rename_i t ht
        unfold tokenInit at hs
        split at hs
        · cases hs
          refine inv2_cpu (a := a) hi h2 (by rw [hp]; rfl) rfl rfl rfl rfl ?_ (fun e he => .inl he)
          intro t h1 h3 h4 h5 h6
          exact ⟨⟨by simp, by simp, by simp, by simp, by simp⟩, trivial⟩
        · cases hs
          exact inv2_move (a := a) hi h2 (by rw [hp]; rfl) rfl rfl rfl rfl (fun _ _ _ => trivial) rfl
    · cases hs
  | tokenContinue c =>
    simp only [step] at hs
    split at hs
    · rename_i a hp
      split at hs
      · cases hs
      · split at hs
        · cases hs
          exact inv2_move (a := a) hi h2 (by rw [hp]; rfl) rfl rfl rfl rfl (fun _ _ _ => trivial) rfl
        · cases hs; exact h2
    · cases hs
  | cpu c e flag => exact inv2_cpuStep hi h2 hP hs
  | el3 i len =>
    simp only [step] at hs
    split at hs
    · cases hs
    · cases hs; exact ⟨h2.own, h2.nf, h2.att, h2.out⟩

theorem inv2_reach {s : State} (h : ReachP Own start s) : Inv2 s := by
  induction h with
  | start => exact inv2_start
  | step hr hP hs ih => exact inv2_step (inv_reach hr) ih hP hs

end Verif.Sign
