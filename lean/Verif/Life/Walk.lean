import Verif.Life.OvStep

/-!
# The programs of `Verif.Atom` in a memory with overlays
-/

namespace Verif.Life

open Rmm
open Atom (MInv PcOk Base isWalk first extra post kept ipa tgt early pre rdA)

/-- The machine of `Verif.Atom` in which the CPUs inside one of the four commands are idle. -/
def base : Pc → Atom.Pc
  | .walk p => p
  | _ => .idle

/-- That machine, with memory `s`. -/
def low (m : M) (s : State) : Atom.M := ⟨s, fun j => base (m.pc j)⟩

/-- A step of a program in a memory with changes, against the step in the memory without. -/
def Sim (T : Ov) (i : Nat) (a b : Atom.Res) : Prop :=
  a = .blocked ∨ (∃ op, a = .fail op ∧ b = .fail op) ∨
    ∃ a' b' d, a = .ok a' d ∧ b = .ok b' d ∧ a'.s = ov T b'.s ∧ a'.pc i = b'.pc i

theorem held_shown (p : Pc) : Atom.held (shown p) = held p := by
  cases p <;> simp [shown, held, Atom.held, List.map_map, Function.comp_def]

theorem held_base {p : Pc} {x : Nat} (h : x ∈ Atom.held (base p)) : x ∈ held p := by
  cases p <;> first | exact h | (simp [base, Atom.held] at h)

theorem free_atom (n : Nat) (m : M) (x : Nat) : Atom.free n m.atom x = free n m x := by
  simp [Atom.free, free, M.atom, held_shown]

theorem free_iff (n : Nat) (m : M) (x : Nat) : free n m x = true ↔ ∀ j < n, x ∉ held (m.pc j) := by
  simp [free]

theorem free_low {n : Nat} {m : M} {s : State} {x : Nat} (h : free n m x = true) :
    Atom.free n (low m s) x = true := by
  rw [Atom.free_iff]
  rw [free_iff] at h
  exact fun j hj hx => h j hj (held_base hx)

/-- A starting level table of a live realm. -/
def Root (s : State) (x : Nat) : Prop :=
  ∃ rd, s.st rd = .rd ∧ ∃ j < (rdOf s rd).nroots, x = (rdOf s rd).root + 4096 * j

/-- The realm whose tables a program is about to enter. -/
def near : Atom.Pc → Option Nat
  | .checked op _ | .root op _ => some (rdA op)
  | _ => none

/-- What a step of a program leaves alone, in the memory without the changes. -/
structure Moved (n : Nat) (T : Ov) (s : State) (m : M) (i : Nat) (p : Atom.Pc) (b : Atom.M) : Prop where
  pcs : ∀ j, j ≠ i → b.pc j = base (m.pc j)
  new : ∀ x ∈ Atom.held (b.pc i), x ∈ held (m.pc i) ∨ (free n m x = true ∧ T.g x = none ∧
    ∀ rd j, s.st rd = .rd → j < (rdOf s rd).nroots → x = (rdOf s rd).root + 4096 * j → near p = some rd)
  root : ∀ op c, b.pc i = .root op c → near p = some (rdA op)
  keeps : ∀ x, x ∉ held (m.pc i) → free n m x = false →
    s.st x = .rd ∨ s.st x = .delegated ∨ s.st x = .recd ∨ s.st x = .rtt → Atom.Keeps s b.s x
  roots : ∀ x, Root s x → x ∉ held (m.pc i) → b.s.rc x = s.rc x
  taken : ∀ x, T.g x ≠ none → b.s.st x = .delegated

section
variable {P : Plat} {n : Nat} {T : Ov} {s : State} {m : M}

theorem pre_ov (S : Sep T s) {r : Rd} {op : Op} (h : ∀ rd q base top, op = .rttSetRipas rd q base top → s.st q = .recd) :
    pre (ov T s) r op = pre s r op := by
  cases op with
  | rttSetRipas rd q base top =>
    have h1 := h _ _ _ _ rfl
    have n1 := S.none (a := q) (by rw [h1]; simp)
    have z1 := S.rc0 (a := q) (by rw [h1]; simp)
    simp only [pre, getRec_ov n1, show (ov T s).rc q = s.rc q from ovRc_zero _ z1]
  | _ => rfl

/-- A step of a program: it does what it does in the memory without the changes, or it finds
that a granule that was to be used is taken by a command under way. -/
theorem go_sim (I : MInv P n (low m s)) (S : Sep T s) (hs : m.s = ov T s)
    (hH : ∀ x, free n m x = true → ∀ {e c}, T.g x = some (e, c) → e = .recAux ∨ e = .rtt)
    {i : Nat} (hK : ∀ x ∈ held (m.pc i), T.g x = none) (hi : i < n) {p : Atom.Pc} (hp : m.pc i = .walk p) :
    (∃ op x, Atom.go P n m.atom i = m.atom.fin i op m.atom.s errInput ∧ T.g x ≠ none) ∨
    (Sim T i (Atom.go P n m.atom i) (Atom.go P n (low m s) i) ∧
      ∀ a' b' d d', Atom.go P n m.atom i = .ok a' d → Atom.go P n (low m s) i = .ok b' d' →
        Moved n T s m i p b') := by
  obtain ⟨ti, di, rl, h, hpc, hd⟩ := I
  have hpi := hpc i hi
  have pa : m.atom.pc i = p := by simp [M.atom, shown, hp]
  have pl : (low m s).pc i = p := by simp [low, base, hp]
  have sa : m.atom.s = ov T s := hs
  have sl : (low m s).s = s := rfl
  rw [pl] at hpi
  change PcOk P s ti p at hpi
  change InvG P s ti di rl at h
  -- steps that leave the memory alone
  have still : ∀ q : Atom.Pc, (∀ x ∈ Atom.held q, x ∈ held (m.pc i) ∨ (free n m x = true ∧ T.g x = none ∧
        ∀ rd j, s.st rd = .rd → j < (rdOf s rd).nroots → x = (rdOf s rd).root + 4096 * j → near p = some rd)) →
      (∀ op c, q = .root op c → near p = some (rdA op)) →
      Moved n T s m i p ⟨s, upd (low m s).pc i q⟩ := by
    intro q h1 h2
    refine ⟨fun j hj => upd_ne _ _ _ hj, ?_, ?_, fun x _ _ _ => .refl _ _, fun _ _ _ => rfl, ?_⟩
    · dsimp only; rw [upd_same]; exact h1
    · dsimp only; rw [upd_same]; exact h2
    · intro x hx
      cases hg : T.g x with
      | none => exact absurd hg hx
      | some y => exact (S.g hg).1
  have quiet : ∀ q, (∀ x ∈ Atom.held q, x ∈ held (m.pc i) ∨ (free n m x = true ∧ T.g x = none ∧
        ∀ rd j, s.st rd = .rd → j < (rdOf s rd).nroots → x = (rdOf s rd).root + 4096 * j → near p = some rd)) →
      (∀ op c, q = .root op c → near p = some (rdA op)) →
      Sim T i (m.atom.to i q) ((low m s).to i q) ∧
      ∀ a' b' d d', m.atom.to i q = .ok a' d → (low m s).to i q = .ok b' d' → Moved n T s m i p b' := by
    intro q h1 h2
    refine ⟨Or.inr (Or.inr ⟨_, _, _, rfl, rfl, sa, ?_⟩), ?_⟩
    · dsimp only; rw [upd_same, upd_same]
    · intro a' b' d d' _ e
      cases e
      exact still q h1 h2
  have stop : ∀ op ret, Sim T i (m.atom.fin i op m.atom.s ret) ((low m s).fin i op (low m s).s ret) ∧
      ∀ a' b' d d', m.atom.fin i op m.atom.s ret = .ok a' d → (low m s).fin i op (low m s).s ret = .ok b' d' →
        Moved n T s m i p b' := by
    intro op ret
    refine ⟨Or.inr (Or.inr ⟨_, _, _, rfl, rfl, sa, ?_⟩), ?_⟩
    · dsimp only; rw [upd_same, upd_same]
    · intro a' b' d d' _ e
      cases e
      exact still .idle (fun x hx => by cases hx) (fun op c hh => by cases hh)
  have block : ∀ b, Sim T i .blocked b ∧ ∀ a' b' d d', Atom.Res.blocked = .ok a' d → b = .ok b' d' →
        Moved n T s m i p b' :=
    fun b => ⟨Or.inl rfl, fun _ _ _ _ e => by cases e⟩
  have fail : ∀ op, Sim T i (.fail op) (.fail op) ∧ ∀ a' b' d d', Atom.Res.fail op = .ok a' d →
        Atom.Res.fail op = .ok b' d' → Moved n T s m i p b' :=
    fun op => ⟨Or.inr (Or.inl ⟨op, rfl, rfl⟩), fun _ _ _ _ e => by cases e⟩
  have isroot : ∀ {x rd a j0}, s.st rd = .rd → ti x = ⟨rd, a, j0⟩ →
      ∀ rd' j, s.st rd' = .rd → j < (rdOf s rd').nroots → x = (rdOf s rd').root + 4096 * j → rd = rd' := by
    rintro x rd a j0 _ ht rd' j hr hj rfl
    rw [((h.rds _ hr).roots j hj).2] at ht
    cases ht; rfl
  have rttNone : ∀ {g}, s.st g = .rtt → T.g g = none := fun hg => S.none (by rw [hg]; simp)
  unfold Atom.go
  rw [pa, pl]
  cases p with
  | idle => exact Or.inr (block _)
  | locking op todo done =>
    obtain ⟨hw, hst, hfirst, hdone⟩ := hpi
    cases todo with
    | cons p todo =>
      obtain ⟨x, e⟩ := p
      dsimp only
      by_cases hc : x ∈ done.map (·.1) ∨ P.tracked x = false
      · rw [if_pos hc, if_pos hc]; exact Or.inr (stop op errInput)
      rw [if_neg hc, if_neg hc, free_atom]
      by_cases hf : free n m x = true
      swap
      · rw [if_neg hf]; exact Or.inr (block _)
      rw [if_pos hf, if_pos (free_low hf), sa, sl]
      cases hg : T.g x with
      | none =>
        rw [show (ov T s).st x = s.st x from ovSt_none _ hg]
        by_cases he : s.st x = e
        · rw [if_pos he, if_pos he]
          refine Or.inr (quiet _ ?_ (fun op c hh => by cases hh))
          intro y hy
          simp only [Atom.held, List.map_append, List.mem_append, List.map_cons, List.map_nil, List.mem_singleton] at hy
          rcases hy with hy | rfl
          · left; rw [hp]; exact hy
          · refine Or.inr ⟨hf, hg, ?_⟩
            rintro rd j hr hj rfl
            have := Atom.first_st op (_, e) (by rw [hfirst]; exact List.mem_append_right _ List.mem_cons_self)
            dsimp only at this
            rw [← he, ((h.rds _ hr).roots j hj).1] at this
            rcases this with h1 | h1 | h1 <;> cases h1
        · rw [if_neg he, if_neg he, ← sa]; exact Or.inr (stop op errInput)
      | some y =>
        obtain ⟨e', c⟩ := y
        have h1 := (S.g hg).1
        have h2 := hH x hf hg
        have hfs := Atom.first_st op (x, e) (by rw [hfirst]; simp)
        have h3 : (ov T s).st x ≠ e := by
          simp only [ov, ovSt, hg]
          dsimp only at hfs
          rcases h2 with rfl | rfl <;> rcases hfs with rfl | rfl | rfl <;> simp
        rw [if_neg h3]
        by_cases he : s.st x = e
        · left; exact ⟨op, x, rfl, by rw [hg]; simp⟩
        · rw [if_neg he, ← sa]; exact Or.inr (stop op errInput)
    | nil =>
      dsimp only
      rw [List.append_nil] at hfirst
      have hrd : s.st (rdA op) = .rd := (hdone _ (hfirst ▸ Atom.rd_first op hw)).2
      have hpre : ∀ r, pre (ov T s) r op = pre s r op := fun r => pre_ov S (by
        rintro rd q b t rfl
        have : (q, GSt.recd) ∈ done := by rw [← hfirst]; simp [first, Atom.mem_two]
        exact (hdone _ this).2)
      rw [sl, show getRd m.atom.s (rdA op) = getRd s (rdA op) by
        rw [sa]; exact getRd_ov (S.none (by rw [hrd]; simp))]
      cases getRd s (rdA op) with
      | none => exact Or.inr (fail op)
      | some r =>
        dsimp only
        rw [show pre m.atom.s r op = pre s r op by rw [sa]; exact hpre r]
        cases pre s r op with
        | err ret => exact Or.inr (stop op ret)
        | bad => exact Or.inr (fail op)
        | go q =>
          refine Or.inr (quiet _ ?_ (fun op c hh => by cases hh))
          intro y hy
          left; rw [hp]
          simp only [held, Atom.held] at hy ⊢
          rw [← hfirst]; exact hy
  | checked op c =>
    obtain ⟨b, _, hr⟩ := hpi
    have h0 := ((h.rds _ b.rd).roots 0 (h.rds _ b.rd).geo.roots1).1
    simp only [Nat.mul_zero, Nat.add_zero] at h0
    rw [hr] at h0
    dsimp only
    rw [free_atom]
    by_cases hf : free n m c.r.root = true
    swap
    · rw [if_neg hf]; exact Or.inr (block _)
    rw [if_pos hf, if_pos (free_low hf), sa, sl, show (ov T s).st c.r.root = s.st c.r.root from ovSt_none _ (rttNone h0),
      if_pos h0, if_pos h0]
    have hti := ((h.rds _ b.rd).roots 0 (h.rds _ b.rd).geo.roots1).2
    simp only [Nat.mul_zero, Nat.add_zero] at hti
    rw [hr] at hti
    refine Or.inr (quiet _ ?_ (fun op c hh => by cases hh; rfl))
    intro y hy
    simp only [Atom.held, List.mem_cons] at hy
    rcases hy with rfl | hy
    · exact Or.inr ⟨hf, rttNone h0, fun rd j h1 h2 h3 => by rw [near, isroot b.rd hti rd j h1 h2 h3]⟩
    · left; rw [hp]
      obtain ⟨e, he⟩ := Atom.kept_first op b.walk y hy
      exact List.mem_map_of_mem (f := (·.1)) he
  | root op c =>
    obtain ⟨b, h1, h2⟩ := hpi
    dsimp only
    by_cases hc : tgt op ≤ c.r.d0 ∧ ipa op < c.r.ipaSize ∧ (rootFor c.r (ipa op)).1 < c.r.nroots
    swap
    · rw [if_neg hc, if_neg hc]; exact Or.inr (fail op)
    rw [if_pos hc, if_pos hc]
    by_cases hz : (rootFor c.r (ipa op)).1 = 0
    · rw [if_pos hz, if_pos hz]
      refine Or.inr (quiet _ ?_ (fun op c hh => by cases hh))
      intro y hy
      left; rw [hp]; exact hy
    rw [if_neg hz, if_neg hz, free_atom]
    by_cases hf : free n m (rootFor c.r (ipa op)).2 = true
    swap
    · rw [if_neg hf]; exact Or.inr (block _)
    have h0 : s.st (rootFor c.r (ipa op)).2 = .rtt := by
      have hlt : (rootFor c.r (ipa op)).1 < (rdOf s (rdA op)).nroots := by rw [b.geo.nroots]; exact hc.2.2
      have := ((h.rds _ b.rd).roots _ hlt).1
      rw [b.geo.root] at this
      exact this
    rw [if_pos hf, if_pos (free_low hf), sa, sl,
      show (ov T s).st (rootFor c.r (ipa op)).2 = s.st (rootFor c.r (ipa op)).2 from ovSt_none _ (rttNone h0),
      if_pos h0, if_pos h0]
    refine Or.inr (quiet _ ?_ (fun op c hh => by cases hh))
    intro y hy
    simp only [Atom.held, List.mem_cons] at hy
    rcases hy with rfl | hy
    · refine Or.inr ⟨hf, rttNone h0, fun rd j h1 h2 h3 => ?_⟩
      have hlt : (rootFor c.r (ipa op)).1 < (rdOf s (rdA op)).nroots := by rw [b.geo.nroots]; exact hc.2.2
      have hti := ((h.rds _ b.rd).roots _ hlt).2
      rw [b.geo.root] at hti
      rw [near, isroot b.rd hti rd j h1 h2 h3]
    · left; rw [hp]; exact List.mem_cons_of_mem _ hy
  | walking op c d g =>
    obtain ⟨b, ka, ht⟩ := hpi
    have ng := rttNone ka.st
    have zg := S.rc0 (a := g) (by rw [ka.st]; simp)
    have hT := h.tab g ka.st
    have hgt : getTab s g = some (tabOf s g) := getTab_of_mem hT.mem
    have hent := hT.ent (idx d (ipa op)) (idx_lt _ _)
    rw [ka.ti] at hent
    dsimp only at hent
    have hex : extra (ov T s) ⟨g, d, idx d (ipa op)⟩ op = extra s ⟨g, d, idx d (ipa op)⟩ op := by
      cases op <;> simp only [extra, tabOf_ov ng]
    have hed := ka.depth h
    have hchild : ∀ x, tabOf s g (idx d (ipa op)) = .table x → s.st x = .rtt ∧ ¬ Root s x := by
      intro x hx
      have hent := hent
      rw [hx] at hent
      obtain ⟨_, h1, h2, h3, _⟩ := hent
      refine ⟨h2, ?_⟩
      rintro ⟨rd, hrd, j, hj, rfl⟩
      have := ((h.rds _ hrd).roots j hj).2
      rw [this] at h3
      simp only [TabInfo.mk.injEq] at h3
      rw [h3.1] at h3
      omega
    have hexs : ∀ x ∈ extra s ⟨g, d, idx d (ipa op)⟩ op, (s.st x = .rtt ∨ s.st x = .data) ∧ ¬ Root s x := by
      have hdata : ∀ rp x, d = 0 → tabOf s g (idx d (ipa op)) = .assigned rp x → s.st x = .data := by
        intro rp x hz hx
        rw [hx] at hent
        obtain ⟨_, _, _, _, h5⟩ := hent
        have := (h5 0 (by rw [hz]; simp)).1
        simpa using this
      intro x hx
      cases op with
      | rttFold rd a lvl | rttDestroy rd a lvl =>
        simp only [extra] at hx
        split at hx
        · split at hx
          · rename_i c' hc'
            simp only [List.mem_singleton] at hx
            subst hx
            exact ⟨Or.inl (hchild _ hc').1, (hchild _ hc').2⟩
          · cases hx
        · cases hx
      | dataDestroy rd a =>
        simp only [extra] at hx
        split at hx
        · rename_i hz
          split at hx
          · rename_i rp pa hc'
            simp only [List.mem_singleton] at hx
            subst hx
            have hdt := hdata _ _ hz hc'
            refine ⟨Or.inr hdt, ?_⟩
            rintro ⟨rd, hrd, j, hj, rfl⟩
            rw [((h.rds _ hrd).roots j hj).1] at hdt
            cases hdt
          · cases hx
        · cases hx
      | _ => simp [extra] at hx
    -- the end of the command
    have fin : (∃ op' x, (if (extra m.atom.s ⟨g, d, idx d (ipa op)⟩ op).all (Atom.free n m.atom) = true then
            match post P m.atom.s c.r c.q ⟨g, d, idx d (ipa op)⟩ op with
            | none => Atom.Res.fail op
            | some (s', ret) => m.atom.fin i op s' ret
          else .blocked) = m.atom.fin i op' m.atom.s errInput ∧ T.g x ≠ none) ∨
        (Sim T i (if (extra m.atom.s ⟨g, d, idx d (ipa op)⟩ op).all (Atom.free n m.atom) = true then
            match post P m.atom.s c.r c.q ⟨g, d, idx d (ipa op)⟩ op with
            | none => Atom.Res.fail op
            | some (s', ret) => m.atom.fin i op s' ret
          else .blocked)
        (if (extra s ⟨g, d, idx d (ipa op)⟩ op).all (Atom.free n (low m s)) = true then
            match post P s c.r c.q ⟨g, d, idx d (ipa op)⟩ op with
            | none => Atom.Res.fail op
            | some (s', ret) => (low m s).fin i op s' ret
          else .blocked) ∧
        ∀ a' b' d' d'', (if (extra m.atom.s ⟨g, d, idx d (ipa op)⟩ op).all (Atom.free n m.atom) = true then
            match post P m.atom.s c.r c.q ⟨g, d, idx d (ipa op)⟩ op with
            | none => Atom.Res.fail op
            | some (s', ret) => m.atom.fin i op s' ret
          else .blocked) = .ok a' d' →
          (if (extra s ⟨g, d, idx d (ipa op)⟩ op).all (Atom.free n (low m s)) = true then
            match post P s c.r c.q ⟨g, d, idx d (ipa op)⟩ op with
            | none => Atom.Res.fail op
            | some (s', ret) => (low m s).fin i op s' ret
          else .blocked) = .ok b' d'' →
          Moved n T s m i (.walking op c d g) b') := by
      right
      rw [sa, hex]
      by_cases hf : (extra s ⟨g, d, idx d (ipa op)⟩ op).all (Atom.free n m.atom) = true
      swap
      · rw [if_neg hf]; exact block _
      have hf' : ∀ x ∈ extra s ⟨g, d, idx d (ipa op)⟩ op, free n m x = true := by
        intro x hx
        rw [List.all_eq_true] at hf
        rw [← free_atom]; exact hf x hx
      have hf2 : (extra s ⟨g, d, idx d (ipa op)⟩ op).all (Atom.free n (low m s)) = true := by
        rw [List.all_eq_true]; exact fun x hx => free_low (hf' x hx)
      rw [if_pos hf, if_pos hf2]
      have hpo : post P (ov T s) c.r c.q ⟨g, d, idx d (ipa op)⟩ op =
          ovOut T (post P s c.r c.q ⟨g, d, idx d (ipa op)⟩ op) := by
        refine post_ov ng zg ?_ ?_ ?_ ?_
        · intro x hx
          obtain ⟨e, he⟩ := Atom.kept_first op b.walk x hx
          cases hgx : T.g x with
          | none => rfl
          | some y =>
            obtain ⟨e', c'⟩ := y
            -- a granule this CPU has locked
            exfalso
            have := hK x (by rw [hp]; exact List.mem_cons_of_mem _ hx)
            rw [hgx] at this; cases this
        · rintro rd rtt a lvl rfl
          have : rtt ∈ kept (.rttCreate rd rtt a lvl) := by simp [kept]
          have h3 := (b.keep (rtt, .delegated) (by simp [first, Atom.mem_two]) this).2
          exact S.rc0 (by rw [h3]; simp)
        · intro x hx
          rcases (hexs x hx).1 with h1 | h1
          · exact ⟨S.none (by rw [h1]; simp), S.rc0 (by rw [h1]; simp)⟩
          · exact ⟨S.none (by rw [h1]; simp), S.rc0 (by rw [h1]; simp)⟩
        · rintro rd data a src flags rfl hp
          exact S.none (by rw [ns_of_pas h hp]; simp)
      rw [hpo]
      cases hpe : post P s c.r c.q ⟨g, d, idx d (ipa op)⟩ op with
      | none => exact fail op
      | some y =>
        obtain ⟨s', ret⟩ := y
        refine ⟨Or.inr (Or.inr ⟨_, _, _, rfl, rfl, rfl, ?_⟩), ?_⟩
        · dsimp only; rw [upd_same, upd_same]
        · intro a' b' d1 d2 _ e
          cases e
          have hkept : ∀ x, x ∉ held (m.pc i) → x ∉ extra s ⟨g, d, idx d (ipa op)⟩ op → Kept s s' x := by
            intro x hx hxe
            rw [hp] at hx
            simp only [held, Atom.held, List.mem_cons, not_or] at hx
            exact Atom.post_kept hpe hx.1 hx.2 hxe
          refine ⟨fun j hj => upd_ne _ _ _ hj, ?_, ?_, ?_, ?_, ?_⟩
          · dsimp only; rw [upd_same]; exact fun x hx => by cases hx
          · dsimp only; rw [upd_same]; exact fun op c hh => by cases hh
          · intro x hx h1 _
            exact .of_kept (hkept x hx (fun hxe => by rw [hf' x hxe] at h1; cases h1))
          · intro x h1 hx
            exact (hkept x hx (fun hxe => (hexs x hxe).2 h1)).2.2
          · intro x hx
            have h1 : s.st x = .delegated := by
              cases hg : T.g x with
              | none => exact absurd hg hx
              | some y => exact (S.g hg).1
            refine Eq.trans (hkept x (fun hh => hx (hK x hh)) (fun hxe => ?_)).1 h1
            rcases (hexs x hxe).1 with h2 | h2 <;> rw [h1] at h2 <;> cases h2
    dsimp only
    rw [sl, hgt]
    rw [show getTab m.atom.s g = some (tabOf s g) by rw [sa, getTab_ov ng, hgt]]
    dsimp only
    by_cases hd' : d ≤ tgt op
    · rw [if_pos hd', if_pos hd']; exact fin
    rw [if_neg hd', if_neg hd']
    cases hx : tabOf s g (idx d (ipa op)) with
    | table x =>
      rw [hx] at hent
      obtain ⟨_, _, hc, _, _⟩ := hent
      dsimp only
      rw [free_atom]
      by_cases hf : free n m x = true
      swap
      · rw [if_neg hf]; exact Or.inr (block _)
      rw [if_pos hf, if_pos (free_low hf), sa, show (ov T s).st x = s.st x from ovSt_none _ (rttNone hc),
        if_pos hc, if_pos hc]
      refine Or.inr (quiet _ ?_ (fun op c hh => by cases hh))
      intro y hy
      simp only [Atom.held, List.mem_cons] at hy
      rcases hy with rfl | hy
      · exact Or.inr ⟨hf, rttNone hc, fun rd j h1 h2 h3 => absurd ⟨rd, h1, j, h2, h3⟩ (hchild _ hx).2⟩
      · left; rw [hp]; exact List.mem_cons_of_mem _ hy
    | _ => exact fin

end

end Verif.Life
