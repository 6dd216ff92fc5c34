import Verif.Atom.Inv

/-!
# Every step of the concurrent machine is an atomic operation or none
-/

namespace Verif.Atom

open Rmm

/-- The operation that ended did in the state what the atomic operation does; or it is a
DATA_CREATE whose source granule was taken meanwhile, and it failed without changing anything
(the atomic operation fails then, too, if not with the same code). -/
def Lin (P : Plat) (s : State) (op : Op) (s' : State) (ret : Ret) : Prop :=
  step P s op = some (s', ret) ∨
    (Taken s op ∧ s' = s ∧ ret.status ≠ 0 ∧ step P s op = some (s, errInput))

/-- What the theorem says of a step. -/
def StepOk (P : Plat) (n : Nat) (m : M) : Res → Prop
  | .blocked => True
  | .fail op => step P m.s op = none
  | .ok m' none => m'.s = m.s ∧ MInv P n m'
  | .ok m' (some (op, ret)) => Lin P m.s op m'.s ret ∧ MInv P n m'

section
variable {P : Plat} {s : State} {ti : Nat → TabInfo} {di : Nat → Nat × Nat} {rl : Nat → List Nat}

theorem free_iff (n : Nat) (m : M) (x : Nat) : free n m x = true ↔ ∀ j < n, x ∉ held (m.pc j) := by
  simp [free]

/-- Tables above a table have table entries. -/
theorem above (h : InvG P s ti di rl) {rd a d g d' g' : Nat} (k : At s ti rd a d g) (k' : At s ti rd a d' g')
    (hlt : d < d') : ∃ c, tabOf s g' (idx d' a) = .table c := by
  have hd := k'.depth h
  have hk : (ti g).d + (d' - d - 1) + 1 = d' := by rw [k.ti]; dsimp only; omega
  obtain ⟨p, c, h1, h2, h3⟩ := ancestor h (d' - d - 1) g a k.st (k.lt52 h) (by rw [k.ti]) (by
    rw [hk, k.ti]; exact hd)
  rw [hk] at h2 h3
  rw [k.ti] at h2
  dsimp only at h2
  have : p = g' := tab_unique h _ p g' h1 k'.st (by rw [h2, k'.ti]) rfl
  exact ⟨c, by rw [← this]; exact h3⟩

/-- Where the walk ends, seen from the table that was reached. -/
theorem walk_eq (h : InvG P s ti di rl) {rd a d g t : Nat} (k : At s ti rd a d g) (ht : t ≤ d)
    (hs : d ≠ t → ∀ c, tabOf s g (idx d a) ≠ .table c) : walk s (rdOf s rd) a t = some ⟨g, d, idx d a⟩ := by
  obtain ⟨g', d', hw, k', ht', hs'⟩ := walk_at h k.rd k.lt (le_trans ht (k.depth h))
  have hd : d = d' := by
    rcases Nat.lt_trichotomy d d' with hlt | heq | hlt
    · obtain ⟨c, hc⟩ := above h k k' hlt
      exact absurd hc (hs' (by omega) c)
    · exact heq
    · obtain ⟨c, hc⟩ := above h k' k hlt
      exact absurd hc (hs (by omega) c)
  subst hd
  have : g = g' := tab_unique h _ g g' k.st k'.st (by rw [k.ti, k'.ti]) rfl
  rw [hw, this]

theorem rdSome (h : InvG P s ti di rl) : ∀ x, s.st x = .rd → ∃ r, getRd s x = some r :=
  fun _ hx => ⟨_, getRd_eq h hx⟩

/-- A command whose locks cannot all be had. -/
theorem seq_nolk {op : Op} (hs : static P op) {p : Nat × GSt} (hp : p ∈ first op) (hl : lk P s p.1 p.2 = false) :
    seq P s op = some (s, errInput) := by
  have hall : ¬ ((first op).all fun x => lk P s x.1 x.2) = true := by
    intro hh
    rw [List.all_eq_true] at hh
    rw [hh p hp] at hl; cases hl
  unfold seq
  rcases static_early (s := s) hs with h1 | ⟨_, h1⟩
  · rw [h1]; dsimp only; rw [if_neg hall]
  · rw [h1]

theorem first_nodup (op : Op) : ((first op).map (·.2)).Nodup := by
  cases op <;> simp only [first, two] <;> first | (split <;> simp) | simp

theorem pre_err {r : Rd} {op : Op} {ret : Ret} (ht : Taken s op) (h : pre s r op = .err ret) : ret.status ≠ 0 := by
  cases op with
  | dataCreate rd data a src flags =>
    simp only [pre] at h
    repeat' split at h
    all_goals first
      | cases h; simp [errRealm, errInput]
      | cases h
  | _ => exact ht.elim

theorem pre_bad {r : Rd} {op : Op} (ht : Taken s op) : pre s r op ≠ .bad := by
  cases op with
  | dataCreate rd data a src flags =>
    simp only [pre]
    repeat' split
    all_goals simp
  | _ => exact ht.elim

theorem Taken.tgt {op : Op} (ht : Taken s op) : tgt op = 0 := by
  cases op with
  | dataCreate => rfl
  | _ => exact ht.elim

/-- The end of a DATA_CREATE whose source was taken. -/
theorem post_taken (h : InvG P s ti di rl) {op : Op} {c : Ctx} (b : Base P s op c) (ht : Taken s op)
    {w : Walk} (hg : s.st w.g = .rtt) :
    ∃ ret, post P s c.r c.q w op = some (s, ret) ∧ ret.status ≠ 0 := by
  cases op with
  | dataCreate rd data a src flags =>
    have hsrc : s.pas src ≠ .ns := by
      have := (h.gpt src b.stat.2).mp ht
      rw [this]; simp
    have hz : s.mem data = .page 0 := by
      have := (b.keep (data, .delegated) (by simp [first, mem_two]) (by simp [kept])).2
      exact h.delPage data this
    simp only [post]
    split
    · rw [getTab_eq h hg]
      dsimp only
      split
      · refine ⟨errInput, ?_, by simp [errInput]⟩
        rw [← hz, upd_self]
      · exact ⟨_, rfl, by simp [errRtt]⟩
    · exact ⟨_, rfl, by simp [errRtt]⟩
  | _ => exact ht.elim

theorem Base.all {op : Op} {c : Ctx} (b : Base P s op c) : ((first op).all fun x => lk P s x.1 x.2) = true := by
  rw [List.all_eq_true]
  intro p hp
  rw [lk_iff]
  rcases first_kept op b.walk p hp with hx | rfl
  · exact b.keep p hp hx
  · exact ⟨b.trk, b.rd⟩

theorem Base.pre' {op : Op} {c : Ctx} (b : Base P s op c) : Atom.pre s (rdOf s (rdA op)) op = .go c.q := by
  rw [pre_geo b.walk b.geo b.same, b.pre]

/-- A command whose source was taken would fail. -/
theorem seq_taken {op : Op} (hs : static P op) (ht : Taken s op) : seq P s op = some (s, errInput) := by
  unfold seq
  rcases static_early (s := s) hs with h1 | ⟨_, h1⟩
  · cases op with
    | dataCreate rd data a src flags =>
      simp only [early] at h1
      split at h1
      · cases h1
      split at h1
      · rename_i hl; exact absurd ((lk_iff ..).mp hl).2 ht
      · cases h1
    | _ => exact ht.elim
  · rw [h1]

/-- What the atomic command does once the checks are passed. -/
theorem base_seq (h : InvG P s ti di rl) {op : Op} {c : Ctx} (b : Base P s op c) (ht : ¬ Taken s op) :
    step P s op = match walk s c.r (ipa op) (tgt op) with
      | none => none
      | some w => post P s c.r c.q w op := by
  rw [step_seq P s op b.walk (rdSome h)]
  unfold Atom.seq
  have h1 : early P s op = none := (static_early b.stat).resolve_right (fun hh => ht hh.1)
  rw [h1]
  dsimp only
  rw [if_pos b.all, getRd_eq h b.rd]
  dsimp only
  rw [b.pre']
  dsimp only
  rw [SameGeo.walk b.geo]
  cases walk s c.r (ipa op) (tgt op) with
  | none => rfl
  | some w => exact post_geo b.walk b.geo b.same

end

section
variable {P : Plat} {n : Nat} {m : M} {ti : Nat → TabInfo} {di : Nat → Nat × Nat} {rl : Nat → List Nat}

/-- A CPU moves on without touching the state. -/
theorem MInv.move (h : InvG P m.s ti di rl) (hp : ∀ i < n, PcOk P m.s ti (m.pc i))
    (hd : ∀ i < n, ∀ j < n, i ≠ j → ∀ x ∈ held (m.pc i), x ∉ held (m.pc j)) {i : Nat} {p : Pc}
    (ok : PcOk P m.s ti p) (hh : ∀ x ∈ held p, x ∈ held (m.pc i) ∨ free n m x = true) (hi : i < n) :
    MInv P n { m with pc := upd m.pc i p } := by
  refine ⟨ti, di, rl, h, fun j hj => ?_, fun j hj k hk hne x hx => ?_⟩
  · dsimp only
    by_cases hji : j = i
    · rw [hji, upd_same]; exact ok
    · rw [upd_ne _ _ _ hji]; exact hp j hj
  · dsimp only at hx ⊢
    by_cases hji : j = i
    · rw [hji, upd_same] at hx
      have hki : k ≠ i := fun hh => hne (hji.trans hh.symm)
      rw [upd_ne _ _ _ hki]
      rcases hh x hx with h1 | h1
      · exact hd i hi k hk hki.symm x h1
      · exact (free_iff ..).mp h1 k hk
    · rw [upd_ne _ _ _ hji] at hx
      by_cases hki : k = i
      · rw [hki, upd_same]
        intro hx'
        rcases hh x hx' with h1 | h1
        · exact hd i hi j hj (Ne.symm hji) x h1 hx
        · exact (free_iff ..).mp h1 j hj hx
      · rw [upd_ne _ _ _ hki]; exact hd j hj k hk hne x hx

/-- An operation ends. -/
theorem MInv.end_ (hP : PlatOk P) (h : InvG P m.s ti di rl) (hp : ∀ i < n, PcOk P m.s ti (m.pc i))
    (hd : ∀ i < n, ∀ j < n, i ≠ j → ∀ x ∈ held (m.pc i), x ∉ held (m.pc j)) {i : Nat} {op : Op} {s' : State}
    {ret : Ret} (e : step P m.s op = some (s', ret)) {X : List Nat}
    (hX : ∀ x, x ∉ X → m.s.st x = .rd ∨ m.s.st x = .delegated ∨ m.s.st x = .recd ∨ m.s.st x = .rtt → Keeps m.s s' x)
    (hD : ∀ rd, op = .realmDestroy rd → X = foot m.s op)
    (hF : ∀ j < n, j ≠ i → ∀ x ∈ held (m.pc j), x ∉ X) :
    MInv P n { s := s', pc := upd m.pc i .idle } := by
  obtain ⟨ti', di', rl', h', hk⟩ := PcOk.step hP h e hX hD
  refine ⟨ti', di', rl', h', fun j hj => ?_, fun j hj k hk' hne x hx => ?_⟩
  · dsimp only
    by_cases hji : j = i
    · rw [hji, upd_same]; trivial
    · rw [upd_ne _ _ _ hji]; exact hk _ (hp j hj) (hF j hj hji)
  · dsimp only at hx ⊢
    by_cases hji : j = i
    · rw [hji, upd_same] at hx; cases hx
    · rw [upd_ne _ _ _ hji] at hx
      by_cases hki : k = i
      · rw [hki, upd_same]; simp [held]
      · rw [upd_ne _ _ _ hki]; exact hd j hj k hk' hne x hx

/-- A CPU that stops without touching the state. -/
theorem MInv.stop (h : InvG P m.s ti di rl) (hp : ∀ i < n, PcOk P m.s ti (m.pc i))
    (hd : ∀ i < n, ∀ j < n, i ≠ j → ∀ x ∈ held (m.pc i), x ∉ held (m.pc j)) {i : Nat} (hi : i < n) :
    MInv P n { s := m.s, pc := upd m.pc i .idle } :=
  MInv.move h hp hd (i := i) (p := .idle) trivial (fun x hx => by cases hx) hi

theorem start_ok (hP : PlatOk P) (I : MInv P n m) {i : Nat} (hi : i < n) (op : Op) :
    StepOk P n m (start P n m i op) := by
  obtain ⟨ti, di, rl, h, hp, hd⟩ := I
  unfold start
  split
  swap
  · trivial
  rename_i hidle
  by_cases hw : isWalk op = true
  · rw [if_pos hw]
    cases he : early P m.s op with
    | some ret =>
      refine ⟨Or.inl ?_, MInv.stop h hp hd hi⟩
      dsimp only
      rw [step_seq P m.s op hw (rdSome h)]
      unfold seq
      rw [he]
    | none =>
      refine ⟨rfl, MInv.move h hp hd (p := .locking op (first op) []) ?_ (fun x hx => by cases hx) hi⟩
      exact ⟨hw, early_static he, rfl, fun p hp => by cases hp⟩
  · rw [if_neg hw]
    split
    · rename_i hf
      rw [List.all_eq_true] at hf
      cases he : step P m.s op with
      | none => exact he
      | some r =>
        obtain ⟨s', ret⟩ := r
        refine ⟨Or.inl he, MInv.end_ hP h hp hd he (X := foot m.s op) ?_ (fun _ _ => rfl) ?_⟩
        · intro x hx hst
          rcases step_eff hP h he with ⟨rfl, _⟩ | k
          · exact .refl _ _
          · exact Eff.keeps k (by simpa using hw) hst hx
        · intro j hj _ x hx hxf
          exact (free_iff ..).mp (hf x hxf) j hj hx
    · trivial

theorem go_ok (hP : PlatOk P) (I : MInv P n m) {i : Nat} (hi : i < n) : StepOk P n m (go P n m i) := by
  obtain ⟨ti, di, rl, h, hp, hd⟩ := I
  have hpi := hp i hi
  unfold go
  cases hpc : m.pc i with
  | idle => trivial
  | locking op todo done =>
    rw [hpc] at hpi
    obtain ⟨hw, hst, hfirst, hdone⟩ := hpi
    cases todo with
    | cons p todo =>
      obtain ⟨x, e⟩ := p
      have hmem : (x, e) ∈ first op := by rw [hfirst]; simp
      have err : lk P m.s x e = false → StepOk P n m (m.fin i op m.s errInput) := by
        intro hl
        refine ⟨Or.inl ?_, MInv.stop h hp hd hi⟩
        dsimp only
        rw [step_seq P m.s op hw (rdSome h)]
        exact seq_nolk hst hmem hl
      dsimp only
      split
      · rename_i hc
        apply err
        rcases hc with hc | hc
        · obtain ⟨⟨x', e'⟩, hm, rfl⟩ := List.mem_map.mp hc
          have hs := (hdone _ hm).2
          have hne : e' ≠ e := by
            have := first_nodup op
            rw [hfirst, List.map_append, List.map_cons, List.nodup_append] at this
            exact this.2.2 e' (List.mem_map_of_mem (f := (·.2)) hm) e List.mem_cons_self
          dsimp only at hs ⊢
          simp only [lk, hs, hne, decide_false, Bool.and_false]
        · simp [lk, hc]
      · rename_i hc
        simp only [not_or, Bool.not_eq_false] at hc
        split
        · rename_i hf
          split
          · rename_i hse
            refine ⟨rfl, MInv.move h hp hd (p := .locking op todo (done ++ [(x, e)])) ?_ ?_ hi⟩
            · refine ⟨hw, hst, by rw [hfirst]; simp, fun p hp => ?_⟩
              rcases List.mem_append.mp hp with hp | hp
              · exact hdone p hp
              · rw [List.mem_singleton] at hp; subst hp; exact ⟨hc.2, hse⟩
            · intro y hy
              simp only [held, List.map_append, List.mem_append, List.map_cons, List.map_nil, List.mem_singleton] at hy
              rcases hy with hy | rfl
              · left; rw [hpc]; exact hy
              · right; exact hf
          · rename_i hse
            exact err (by simp [lk, hse])
        · trivial
    | nil =>
      rw [List.append_nil] at hfirst
      dsimp only
      have hrd := hdone _ (by rw [← hfirst]; exact rd_first op hw)
      dsimp only at hrd
      rw [getRd_eq h hrd.2]
      dsimp only
      have hall : ((first op).all fun x => lk P m.s x.1 x.2) = true := by
        rw [List.all_eq_true, hfirst]; intro p hp; rw [lk_iff]; exact hdone p hp
      have hseq : ¬ Taken m.s op → step P m.s op = match Atom.pre m.s (rdOf m.s (rdA op)) op with
          | .err ret => some (m.s, ret)
          | .bad => none
          | .go q =>
            match walk m.s (rdOf m.s (rdA op)) (ipa op) (tgt op) with
            | none => none
            | some w => post P m.s (rdOf m.s (rdA op)) q w op := by
        intro ht
        rw [step_seq P m.s op hw (rdSome h)]
        unfold seq
        rw [(static_early hst).resolve_right (fun hh => ht hh.1)]
        dsimp only
        rw [if_pos hall, getRd_eq h hrd.2]
        rfl
      cases hpre : Atom.pre m.s (rdOf m.s (rdA op)) op with
      | err ret =>
        refine ⟨?_, MInv.stop h hp hd hi⟩
        by_cases ht : Taken m.s op
        · exact Or.inr ⟨ht, rfl, pre_err ht hpre, by rw [step_seq P m.s op hw (rdSome h)]; exact seq_taken hst ht⟩
        · left; rw [hseq ht, hpre]
      | bad =>
        have ht : ¬ Taken m.s op := fun ht => pre_bad ht hpre
        show step P m.s op = none
        rw [hseq ht, hpre]
      | go q =>
        refine ⟨rfl, MInv.move h hp hd (p := .checked op ⟨rdOf m.s (rdA op), q⟩) ?_ ?_ hi⟩
        · refine ⟨⟨hw, hst, hrd.1, hrd.2, SameGeo.refl _, ?_, fun _ => rfl, hpre⟩, ?_, rfl⟩
          · intro p hp _; rw [hfirst] at hp; exact hdone p hp
          · intro p hp; rw [hfirst] at hp; exact hdone p hp
        · intro y hy
          left; rw [hpc]
          simp only [held] at hy ⊢
          rw [← hfirst]; exact hy
  | checked op c =>
    rw [hpc] at hpi
    obtain ⟨b, hfl, hsame⟩ := hpi
    dsimp only
    split
    · rename_i hf
      have hR := (h.rds _ b.rd)
      obtain ⟨h1, h2⟩ := hR.roots 0 hR.geo.roots1
      rw [hsame] at h1 h2
      simp only [Nat.mul_zero, Nat.add_zero] at h1 h2
      rw [if_pos h1]
      refine ⟨rfl, MInv.move h hp hd (p := .root op c) ⟨b, h1, by rw [h2]⟩ ?_ hi⟩
      intro y hy
      simp only [held, List.mem_cons] at hy
      rcases hy with rfl | hy
      · right; exact hf
      · left; rw [hpc]
        obtain ⟨e, he⟩ := kept_first op b.walk y hy
        exact List.mem_map_of_mem (f := (·.1)) he
    · trivial
  | root op c =>
    rw [hpc] at hpi
    obtain ⟨b, hroot, hti⟩ := hpi
    have hlt : ipa op < c.r.ipaSize := pre_lt b.walk b.pre
    have hlt' : ipa op < (rdOf m.s (rdA op)).ipaSize := by rw [b.geo.ipa]; exact hlt
    obtain ⟨r1, r2, r3, r4⟩ := root_spec h b.rd hlt'
    rw [SameGeo.rootFor b.geo] at r1 r2 r3 r4
    rw [b.geo.nroots] at r1
    rw [b.geo.root] at r2
    rw [b.geo.d0] at r4
    dsimp only
    split
    swap
    · rename_i hc
      have htgt : ¬ tgt op ≤ c.r.d0 := fun hh => hc ⟨hh, hlt, r1⟩
      show step P m.s op = none
      rw [base_seq h b (fun ht => htgt (by rw [ht.tgt]; omega))]
      unfold walk
      rw [if_neg (fun hh => htgt hh.1)]
    · rename_i hc
      split
      · rename_i h0
        rw [h0] at r2
        simp only [Nat.mul_zero, Nat.add_zero] at r2
        refine ⟨rfl, MInv.move h hp hd (p := .walking op c c.r.d0 c.r.root) ?_ ?_ hi⟩
        · rw [r2] at r3 r4
          exact ⟨b, ⟨b.rd, hlt', r3, r4⟩, hc.1⟩
        · intro y hy; left; rw [hpc]; exact hy
      · split
        · rename_i hf
          refine ⟨rfl, MInv.move h hp hd (p := .walking op c c.r.d0 (rootFor c.r (ipa op)).2) ?_ ?_ hi⟩
          · exact ⟨b, ⟨b.rd, hlt', r3, r4⟩, hc.1⟩
          · intro y hy
            simp only [held, List.mem_cons] at hy
            rcases hy with rfl | hy
            · right; exact hf
            · left; rw [hpc]; exact List.mem_cons_of_mem _ hy
        · trivial
  | walking op c d g =>
    rw [hpc] at hpi
    obtain ⟨b, k, htgt⟩ := hpi
    dsimp only
    rw [getTab_eq h k.st]
    dsimp only
    have fin : (d ≠ tgt op → ∀ c', tabOf m.s g (idx d (ipa op)) ≠ .table c') →
        StepOk P n m (if ((extra m.s ⟨g, d, idx d (ipa op)⟩ op).all (free n m)) = true then
          match post P m.s c.r c.q ⟨g, d, idx d (ipa op)⟩ op with
          | none => .fail op
          | some (s', ret) => m.fin i op s' ret
        else .blocked) := by
      intro hstop
      split
      swap
      · trivial
      rename_i hx
      rw [List.all_eq_true] at hx
      by_cases ht : Taken m.s op
      · obtain ⟨ret, hpost, hret⟩ := post_taken h b ht (w := ⟨g, d, idx d (ipa op)⟩) k.st
        rw [hpost]
        refine ⟨Or.inr ⟨ht, rfl, hret, ?_⟩, MInv.stop h hp hd hi⟩
        rw [step_seq P m.s op b.walk (rdSome h)]
        exact seq_taken b.stat ht
      · have hs := base_seq h b ht
        have hwalk := walk_eq h k htgt hstop
        rw [SameGeo.walk b.geo] at hwalk
        rw [hwalk] at hs
        dsimp only at hs
        cases hpost : post P m.s c.r c.q ⟨g, d, idx d (ipa op)⟩ op with
        | none => rw [hpost] at hs; exact hs
        | some r =>
          obtain ⟨s', ret⟩ := r
          rw [hpost] at hs
          refine ⟨Or.inl hs, MInv.end_ hP h hp hd hs
            (X := g :: kept op ++ extra m.s ⟨g, d, idx d (ipa op)⟩ op) ?_ ?_ ?_⟩
          · intro x hxX _
            simp only [List.cons_append, List.mem_cons, List.mem_append, not_or] at hxX
            exact .of_kept (post_kept hpost hxX.1 hxX.2.1 hxX.2.2)
          · rintro rd rfl; cases b.walk
          · intro j hj hji x hxj hxX
            rcases List.mem_append.mp hxX with h1 | h1
            · exact hd j hj i hi hji x hxj (by rw [hpc]; exact h1)
            · exact (free_iff ..).mp (hx x h1) j hj hxj
    split
    · exact fin (fun hne => absurd (by omega) hne)
    · rename_i hgt
      split
      · rename_i x hent
        have hE := k.ent h
        rw [hent] at hE
        obtain ⟨_, e2, e3, e4, _⟩ := hE
        split
        · rename_i hf
          refine ⟨rfl, MInv.move h hp hd (p := .walking op c (d - 1) x) ⟨b, ⟨k.rd, k.lt, e3, ?_⟩, by omega⟩ ?_ hi⟩
          · rw [e4]
            have hd1 : d - 1 + 1 = d := by omega
            unfold al
            rw [hd1]
          · intro y hy
            simp only [held, List.mem_cons] at hy
            rcases hy with rfl | hy
            · right; exact hf
            · left; rw [hpc]; exact List.mem_cons_of_mem _ hy
        · trivial
      · rename_i hne
        exact fin (fun _ c' hc' => hne c' hc')

theorem mstep_ok (hP : PlatOk P) (I : MInv P n m) {i : Nat} (hi : i < n) (act : Act) :
    StepOk P n m (mstep P n m i act) := by
  cases act with
  | start op => exact start_ok hP I hi op
  | go => exact go_ok hP I hi

theorem Exec.inv (hP : PlatOk P) {l : List (Op × Ret)} (x : Exec P n m l) : MInv P n m := by
  induction x with
  | init hi =>
    obtain ⟨ti, di, rl, h⟩ := hi.inv
    exact ⟨ti, di, rl, h, fun _ _ => trivial, fun _ _ _ _ _ x hx => by cases hx⟩
  | @quiet m m' l i act _ hi e ih =>
    have k := mstep_ok hP ih hi act
    rw [e] at k
    exact k.2
  | @done m m' l i act y _ hi e ih =>
    have k := mstep_ok hP ih hi act
    rw [e] at k
    exact k.2

end

end Verif.Atom
