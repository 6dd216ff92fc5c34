import Verif.Conc.Dead
import Verif.Conc.Word

/-!
# The bit locks, with every CPU working on the descriptor words

`Mach` of `Verif.Conc.Dead` records the owner of a lock.  Here there is no such record:
CPUs only see the 16-bit words.  Every step is one atomic access.  A CPU that takes a lock
and finds an unexpected state holds the lock until a later step releases it.
`granule_set_state` reads the word in one step and applies an exclusive or in a later one.
-/

namespace Verif.Conc

structure WMach where
  word : Nat → Desc
  cls : Nat → GSt
  cpu : Nat → Cpu
  /-- CPU has taken the lock of this granule and is about to release it because the state
  does not match -/
  probe : Nat → Option Nat
  /-- granule and word read by `granule_set_state`, before the exclusive or -/
  seen : Nat → Option (Nat × Desc)

def upd {α : Type} (f : Nat → α) (k : Nat) (v : α) : Nat → α := fun x => if x = k then v else f x

theorem upd_same {α : Type} (f : Nat → α) (k : Nat) (v : α) : upd f k v k = v := if_pos rfl
theorem upd_other {α : Type} (f : Nat → α) (k x : Nat) (v : α) (h : x ≠ k) : upd f k v x = f x :=
  if_neg h

/-- One step of CPU `i`. -/
inductive WStep (m : WMach) (i : Nat) : WMach → Prop where
  /-- `ldsetah` returning a clear lock bit, state as expected:
  /repo/lib/granule/include/granule.h:167-179 -/
  | acq (t : Tag) (h : How) (a lvl : Nat) (hp : m.probe i = none) (hse : m.seen i = none)
      (hl : Legal ((m.cpu i).tr ++ [.acq t h])) (ha : okAddr (m.cpu i).hold a lvl h)
      (hf : locked (m.word a) = false) (hc : m.cls a = gstOf h.kind lvl) :
      WStep m i { m with
        word := upd m.word a (ldset (m.word a))
        cpu := upd m.cpu i ⟨(m.cpu i).tr ++ [.acq t h], (m.cpu i).hold ++ [⟨t, h.kind, a, lvl⟩]⟩ }
  /-- `ldsetah` returning a set lock bit: the CPU tries again -/
  | spin (a : Nat) (hf : locked (m.word a) = true) :
      WStep m i { m with word := upd m.word a (ldset (m.word a)) }
  /-- `ldsetah` returning a clear lock bit, state not as expected -/
  | take (h : How) (a lvl : Nat) (hp : m.probe i = none) (hse : m.seen i = none)
      (hl : Legal ((m.cpu i).tr ++ [.miss h])) (ha : okAddr (m.cpu i).hold a lvl h)
      (hf : locked (m.word a) = false) :
      WStep m i { m with
        word := upd m.word a (ldset (m.word a))
        probe := upd m.probe i (some a) }
  /-- the release after a mismatch -/
  | drop (h : How) (a lvl : Nat) (hp : m.probe i = some a)
      (hl : Legal ((m.cpu i).tr ++ [.miss h])) (ha : okAddr (m.cpu i).hold a lvl h) :
      WStep m i { m with
        word := upd m.word a (stclr (m.word a))
        probe := upd m.probe i none
        cpu := upd m.cpu i ⟨(m.cpu i).tr ++ [.miss h], (m.cpu i).hold⟩ }
  /-- `stclrlh` of granule_unlock: granule.h:193-197 -/
  | rel (x : Hold) (hp : m.probe i = none) (hse : m.seen i = none) (hx : x ∈ (m.cpu i).hold)
      (hl : Legal ((m.cpu i).tr ++ [.rel x.tag])) :
      WStep m i { m with
        word := upd m.word x.addr (stclr (m.word x.addr))
        cpu := upd m.cpu i ⟨(m.cpu i).tr ++ [.rel x.tag],
          (m.cpu i).hold.filter (fun y => y.tag != x.tag)⟩ }
  /-- the read in granule_set_state: granule.h:150 -/
  | read (x : Hold) (hp : m.probe i = none) (hse : m.seen i = none) (hx : x ∈ (m.cpu i).hold)
      (hl : Legal ((m.cpu i).tr ++ [.trans x.tag])) :
      WStep m i { m with seen := upd m.seen i (some (x.addr, m.word x.addr)) }
  /-- the exclusive or in granule_set_state: granule.h:159 -/
  | eor (x : Hold) (r : Desc) (st : BitVec 5) (g : GSt) (hp : m.probe i = none)
      (hx : x ∈ (m.cpu i).hold) (hl : Legal ((m.cpu i).tr ++ [.trans x.tag]))
      (hse : m.seen i = some (x.addr, r)) :
      WStep m i { m with
        word := upd m.word x.addr (m.word x.addr ^^^ eorVal r st)
        cls := upd m.cls x.addr g
        seen := upd m.seen i none
        cpu := upd m.cpu i ⟨(m.cpu i).tr ++ [.trans x.tag], (m.cpu i).hold⟩ }
  /-- a reference is counted, or dropped; at any time, by any CPU, whether or not it holds
  the lock (the code holds the lock except in `atomic_granule_put_release`) -/
  | inc (a n : Nat) (hn : (countOf (m.word a)).toNat + n ≤ 1023) :
      WStep m i { m with word := upd m.word a (addCount (m.word a) (BitVec.ofNat 16 n)) }
  | dec (a n : Nat) (hn : n ≤ (countOf (m.word a)).toNat) :
      WStep m i { m with word := upd m.word a (addCount (m.word a) (-BitVec.ofNat 16 n)) }
  | mv (t u : Tag) (hp : m.probe i = none) (hse : m.seen i = none)
      (hl : Legal ((m.cpu i).tr ++ [.mv t u])) :
      WStep m i { m with cpu := upd m.cpu i ⟨(m.cpu i).tr ++ [.mv t u],
        (m.cpu i).hold.map (fun x => if x.tag = t then { x with tag := u } else x)⟩ }
  | other (e : Ev) (hp : m.probe i = none) (hse : m.seen i = none) (he : quiet e = true)
      (hl : Legal ((m.cpu i).tr ++ [e])) :
      WStep m i { m with cpu := upd m.cpu i ⟨(m.cpu i).tr ++ [e], (m.cpu i).hold⟩ }
  | done (p : Prog) (hpr : m.probe i = none) (hse : m.seen i = none) (hp : p ∈ commands)
      (hl : Lang p (m.cpu i).tr) :
      WStep m i { m with cpu := upd m.cpu i ⟨[], (m.cpu i).hold⟩ }

/-- Executions: any interleaving, from a state in which no CPU is in a command and all
lock bits are clear. -/
inductive WReach : WMach → Prop where
  | init (m : WMach) (hw : ∀ a, locked (m.word a) = false) (hc : ∀ i, m.cpu i = ⟨[], []⟩)
      (hp : ∀ i, m.probe i = none) (hs : ∀ i, m.seen i = none) : WReach m
  | step {m m' : WMach} (i : Nat) : WReach m → WStep m i m' → WReach m'

/-- CPU `i` is in the critical section of the granule at `a`. -/
def InCS (m : WMach) (i a : Nat) : Prop :=
  (∃ x ∈ (m.cpu i).hold, x.addr = a) ∨ m.probe i = some a

/-! ## Simulation -/

/-- The words and the record of owners agree. -/
structure Sim (w : WMach) (m : Mach) : Prop where
  reach : Reach m
  cpu : w.cpu = m.cpu
  cls : w.cls = m.cls
  /-- the bit is set only if somebody has the lock -/
  set : ∀ a, locked (w.word a) = true → (∃ i, m.owner a = some i) ∨ ∃ i, w.probe i = some a
  own : ∀ a i, m.owner a = some i → locked (w.word a) = true
  prb : ∀ a i, w.probe i = some a → locked (w.word a) = true ∧ m.owner a = none ∧
    ∀ j, w.probe j = some a → j = i
  seen : ∀ i a r, w.seen i = some (a, r) → m.owner a = some i ∧ stateOf r = stateOf (w.word a)

theorem free_of (w : WMach) (m : Mach) (h : Sim w m) (a : Nat) (hf : locked (w.word a) = false) :
    m.owner a = none ∧ ∀ i, w.probe i ≠ some a := by
  refine ⟨?_, ?_⟩
  · cases ho : m.owner a with
    | none => rfl
    | some i => rw [h.own a i ho] at hf; cases hf
  · intro i hp
    rw [(h.prb a i hp).1] at hf; cases hf

theorem lk_upd (f : Nat → Desc) (a b : Nat) (v : Desc) :
    locked (upd f a v b) = if b = a then locked v else locked (f b) := by
  unfold upd; split <;> rfl

theorem st_upd (f : Nat → Desc) (a b : Nat) (v : Desc) (h : stateOf v = stateOf (f a)) :
    stateOf (upd f a v b) = stateOf (f b) := by
  unfold upd; split
  · next hb => rw [h, hb]
  · rfl

/-- Steps on a word that keep lock bit and state. -/
theorem sim_word (w : WMach) (m : Mach) (h : Sim w m) (a : Nat) (v : Desc)
    (hl : locked v = locked (w.word a)) (hs : stateOf v = stateOf (w.word a)) :
    Sim { w with word := upd w.word a v } m := by
  have hlk : ∀ b, locked (upd w.word a v b) = locked (w.word b) := by
    intro b; rw [lk_upd]; split
    · next hb => rw [hl, hb]
    · rfl
  refine ⟨h.reach, h.cpu, h.cls, ?_, ?_, ?_, ?_⟩
  · intro b hb; exact h.set b (by rw [← hlk]; exact hb)
  · intro b i ho; show locked (upd _ _ _ _) = true; rw [hlk]; exact h.own b i ho
  · intro b i hp
    obtain ⟨h1, h2⟩ := h.prb b i hp
    exact ⟨by show locked (upd _ _ _ _) = true; rw [hlk]; exact h1, h2⟩
  · intro i b r hse
    obtain ⟨h1, h2⟩ := h.seen i b r hse
    exact ⟨h1, by rw [h2]; exact (st_upd w.word a b v hs).symm⟩

/-- Steps of the abstract machine that keep the owners and do not touch the words. -/
theorem sim_tr (w : WMach) (m : Mach) (h : Sim w m) (i : Nat) (c : Cpu)
    (hst : Step m i (setCpu m i c)) : Sim { w with cpu := upd w.cpu i c } (setCpu m i c) := by
  refine ⟨.step i h.reach hst, ?_, h.cls, h.set, h.own, h.prb, h.seen⟩
  show upd w.cpu i c = fun k => if k = i then c else m.cpu k
  rw [h.cpu]; rfl

theorem wstep_sim (w w' : WMach) (m : Mach) (i : Nat) (h : Sim w m) (hst : WStep w i w') :
    ∃ m', Sim w' m' := by
  have hcpu := h.cpu
  cases hst with
  | acq t hw a lvl hp hse hl ha hf hc =>
    obtain ⟨ho, hnp⟩ := free_of w m h a hf
    rw [hcpu] at hl ha
    rw [h.cls] at hc
    refine ⟨_, .step i h.reach (Step.acq t hw a lvl hl ha ho hc), ?_, h.cls, ?_, ?_, ?_, ?_⟩
    · show upd w.cpu i _ = _
      rw [hcpu]; rfl
    · intro b hb
      by_cases hba : b = a
      · exact Or.inl ⟨i, if_pos hba⟩
      · change locked (upd _ _ _ _) = true at hb
        rw [lk_upd, if_neg hba] at hb
        rcases h.set b hb with ⟨j, hj⟩ | hj
        · exact Or.inl ⟨j, (if_neg hba).trans hj⟩
        · exact Or.inr hj
    · intro b j hj
      show locked (upd _ _ _ _) = true
      rw [lk_upd]
      by_cases hba : b = a
      · rw [if_pos hba]; exact locked_ldset _
      · rw [if_neg hba]
        exact h.own b j (by change (if b = a then some i else m.owner b) = some j at hj
                            rwa [if_neg hba] at hj)
    · intro b j hj
      have hba : b ≠ a := by rintro rfl; exact hnp j hj
      obtain ⟨h1, h2, h3⟩ := h.prb b j hj
      refine ⟨?_, ?_, h3⟩
      · show locked (upd _ _ _ _) = true
        rw [lk_upd, if_neg hba]; exact h1
      · exact (if_neg hba).trans h2
    · intro j b r hj
      obtain ⟨h1, h2⟩ := h.seen j b r hj
      have hba : b ≠ a := by rintro rfl; rw [ho] at h1; cases h1
      refine ⟨(if_neg hba).trans h1, ?_⟩
      rw [h2]; exact (st_upd w.word a b _ (stateOf_ldset _)).symm
  | spin a hf =>
    exact ⟨m, sim_word w m h a _ (by rw [locked_ldset, hf]) (stateOf_ldset _)⟩
  | take hw a lvl hp hse hl ha hf =>
    obtain ⟨ho, hnp⟩ := free_of w m h a hf
    refine ⟨m, h.reach, hcpu, h.cls, ?_, ?_, ?_, ?_⟩
    · intro b hb
      by_cases hba : b = a
      · exact Or.inr ⟨i, by rw [hba]; exact upd_same _ _ _⟩
      · change locked (upd _ _ _ _) = true at hb
        rw [lk_upd, if_neg hba] at hb
        rcases h.set b hb with hj | ⟨j, hj⟩
        · exact Or.inl hj
        · refine Or.inr ⟨j, ?_⟩
          have hji : j ≠ i := by rintro rfl; rw [hp] at hj; cases hj
          exact (upd_other _ _ _ _ hji).trans hj
    · intro b j hj
      show locked (upd _ _ _ _) = true
      rw [lk_upd]
      split
      · exact locked_ldset _
      · exact h.own b j hj
    · intro b j hj
      change upd w.probe i (some a) j = some b at hj
      by_cases hji : j = i
      · subst hji
        rw [upd_same] at hj
        injection hj with hj
        subst hj
        refine ⟨?_, ho, ?_⟩
        · show locked (upd _ _ _ _) = true
          rw [lk_upd, if_pos rfl]; exact locked_ldset _
        · intro k hk
          change upd w.probe j (some a) k = some a at hk
          by_cases hkj : k = j
          · exact hkj
          · rw [upd_other _ _ _ _ hkj] at hk; exact absurd hk (hnp k)
      · rw [upd_other _ _ _ _ hji] at hj
        obtain ⟨h1, h2, h3⟩ := h.prb b j hj
        have hba : b ≠ a := by rintro rfl; exact hnp j hj
        refine ⟨?_, h2, ?_⟩
        · show locked (upd _ _ _ _) = true
          rw [lk_upd, if_neg hba]; exact h1
        · intro k hk
          change upd w.probe i (some a) k = some b at hk
          by_cases hki : k = i
          · subst hki; rw [upd_same] at hk; injection hk with hk; exact absurd hk.symm hba
          · rw [upd_other _ _ _ _ hki] at hk; exact h3 k hk
    · intro j b r hj
      obtain ⟨h1, h2⟩ := h.seen j b r hj
      exact ⟨h1, by rw [h2]; exact (st_upd w.word a b _ (stateOf_ldset _)).symm⟩
  | drop hw a lvl hp hl ha =>
    obtain ⟨hlk, ho, huq⟩ := h.prb a i hp
    rw [hcpu] at hl ha
    refine ⟨_, .step i h.reach (Step.miss hw a lvl hl ha ho), ?_, h.cls, ?_, ?_, ?_, ?_⟩
    · show upd w.cpu i _ = _
      rw [hcpu]; rfl
    · intro b hb
      change locked (upd _ _ _ _) = true at hb
      rw [lk_upd] at hb
      by_cases hba : b = a
      · rw [if_pos hba, locked_stclr] at hb; cases hb
      · rw [if_neg hba] at hb
        rcases h.set b hb with hj | ⟨j, hj⟩
        · exact Or.inl hj
        · refine Or.inr ⟨j, ?_⟩
          have hji : j ≠ i := by rintro rfl; rw [hp] at hj; injection hj with hj; exact hba hj.symm
          exact (upd_other _ _ _ _ hji).trans hj
    · intro b j hj
      change m.owner b = some j at hj
      show locked (upd _ _ _ _) = true
      have hba : b ≠ a := by rintro rfl; rw [ho] at hj; cases hj
      rw [lk_upd, if_neg hba]; exact h.own b j hj
    · intro b j hj
      change upd w.probe i none j = some b at hj
      by_cases hji : j = i
      · subst hji; rw [upd_same] at hj; cases hj
      · rw [upd_other _ _ _ _ hji] at hj
        obtain ⟨h1, h2, h3⟩ := h.prb b j hj
        have hba : b ≠ a := by rintro rfl; exact hji (huq j hj)
        refine ⟨?_, h2, ?_⟩
        · show locked (upd _ _ _ _) = true
          rw [lk_upd, if_neg hba]; exact h1
        · intro k hk
          change upd w.probe i none k = some b at hk
          by_cases hki : k = i
          · subst hki; rw [upd_same] at hk; cases hk
          · rw [upd_other _ _ _ _ hki] at hk; exact h3 k hk
    · intro j b r hj
      obtain ⟨h1, h2⟩ := h.seen j b r hj
      exact ⟨h1, by rw [h2]; exact (st_upd w.word a b _ (stateOf_stclr _)).symm⟩
  | rel x hp hse hx hl =>
    rw [hcpu] at hl hx
    have hown := (reach_ok m h.reach)
    obtain ⟨s, hs⟩ := hown.cpu i
    have hox := hs.own x hx
    refine ⟨_, .step i h.reach (Step.rel x hx hl), ?_, h.cls, ?_, ?_, ?_, ?_⟩
    · show upd w.cpu i _ = _
      rw [hcpu]; rfl
    · intro b hb
      change locked (upd _ _ _ _) = true at hb
      rw [lk_upd] at hb
      by_cases hba : b = x.addr
      · rw [if_pos hba, locked_stclr] at hb; cases hb
      · rw [if_neg hba] at hb
        rcases h.set b hb with ⟨j, hj⟩ | hj
        · exact Or.inl ⟨j, (if_neg hba).trans hj⟩
        · exact Or.inr hj
    · intro b j hj
      change (if b = x.addr then none else m.owner b) = some j at hj
      by_cases hba : b = x.addr
      · rw [if_pos hba] at hj; cases hj
      · rw [if_neg hba] at hj
        show locked (upd _ _ _ _) = true
        rw [lk_upd, if_neg hba]; exact h.own b j hj
    · intro b j hj
      obtain ⟨h1, h2, h3⟩ := h.prb b j hj
      have hba : b ≠ x.addr := by rintro rfl; rw [hox] at h2; cases h2
      refine ⟨?_, (if_neg hba).trans h2, h3⟩
      show locked (upd _ _ _ _) = true
      rw [lk_upd, if_neg hba]; exact h1
    · intro j b r hj
      obtain ⟨h1, h2⟩ := h.seen j b r hj
      have hba : b ≠ x.addr := by
        rintro rfl
        rw [hox] at h1
        injection h1 with h1
        subst h1
        rw [hse] at hj; cases hj
      refine ⟨(if_neg hba).trans h1, ?_⟩
      rw [h2]; exact (st_upd w.word x.addr b _ (stateOf_stclr _)).symm
  | read x hp hse hx hl =>
    rw [hcpu] at hl hx
    obtain ⟨s, hs⟩ := (reach_ok m h.reach).cpu i
    have hox := hs.own x hx
    refine ⟨m, h.reach, hcpu, h.cls, h.set, h.own, h.prb, ?_⟩
    intro j b r hj
    change upd w.seen i _ j = some (b, r) at hj
    by_cases hji : j = i
    · subst hji
      rw [upd_same] at hj
      injection hj with hj
      injection hj with h1 h2
      subst h1; subst h2
      exact ⟨hox, rfl⟩
    · rw [upd_other _ _ _ _ hji] at hj; exact h.seen j b r hj
  | eor x r st g hp hx hl hse =>
    rw [hcpu] at hl hx
    obtain ⟨h1, h2⟩ := h.seen i _ _ hse
    obtain ⟨e1, e2, e3⟩ := eor_state (w.word x.addr) r st h2
    have hlk : ∀ b, locked (upd w.word x.addr (w.word x.addr ^^^ eorVal r st) b) = locked (w.word b) := by
      intro b; rw [lk_upd]; split
      · next hb => rw [e3, hb]
      · rfl
    refine ⟨_, .step i h.reach (Step.trans x g hx hl), ?_, ?_, ?_, ?_, ?_, ?_⟩
    · show upd w.cpu i _ = _
      rw [hcpu]; rfl
    · show upd w.cls _ _ = _
      rw [h.cls]; rfl
    · intro b hb
      exact h.set b (by rw [← hlk]; exact hb)
    · intro b j hj
      show locked (upd _ _ _ _) = true
      rw [hlk]; exact h.own b j hj
    · intro b j hj
      obtain ⟨p1, p2⟩ := h.prb b j hj
      exact ⟨by show locked (upd _ _ _ _) = true; rw [hlk]; exact p1, p2⟩
    · intro j b r' hj
      change upd w.seen i none j = some (b, r') at hj
      by_cases hji : j = i
      · subst hji; rw [upd_same] at hj; cases hj
      · rw [upd_other _ _ _ _ hji] at hj
        obtain ⟨s1, s2⟩ := h.seen j b r' hj
        have hba : b ≠ x.addr := by
          rintro rfl
          rw [h1] at s1; injection s1 with s1; exact hji s1.symm
        refine ⟨s1, ?_⟩
        rw [s2]
        show _ = stateOf (upd _ _ _ _)
        rw [upd_other _ _ _ _ hba]
  | inc a n hn =>
    obtain ⟨_, h2, h3⟩ := inc_count _ _ hn
    exact ⟨m, sim_word w m h a _ h3 h2⟩
  | dec a n hn =>
    obtain ⟨_, h2, h3⟩ := dec_count _ _ hn
    exact ⟨m, sim_word w m h a _ h3 h2⟩
  | mv t u hp hse hl =>
    rw [hcpu] at hl ⊢
    have := sim_tr w m h i _ (Step.mv t u hl)
    rw [hcpu] at this
    exact ⟨_, this⟩
  | other e hp hse he hl =>
    rw [hcpu] at hl ⊢
    have := sim_tr w m h i _ (Step.other e he hl)
    rw [hcpu] at this
    exact ⟨_, this⟩
  | done p hpr hse hp hl =>
    rw [hcpu] at hl ⊢
    have := sim_tr w m h i _ (Step.done p hp hl)
    rw [hcpu] at this
    exact ⟨_, this⟩

theorem wreach_sim (w : WMach) (h : WReach w) : ∃ m, Sim w m := by
  induction h with
  | init w hw hc hp hs =>
    refine ⟨⟨fun _ => none, w.cls, w.cpu⟩, .init _ (fun _ => rfl) hc, rfl, rfl, ?_, ?_, ?_, ?_⟩
    · intro a ha; rw [hw a] at ha; cases ha
    · intro a i ha; cases ha
    · intro a i ha; rw [hp i] at ha; cases ha
    · intro i a r ha; rw [hs i] at ha; cases ha
  | step i _ hst ih =>
    obtain ⟨m, hm⟩ := ih
    exact wstep_sim _ _ m i hm hst

end Verif.Conc
