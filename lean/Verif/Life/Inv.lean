import Verif.Life.Walk

/-!
# The invariant of the machine with the four commands in small steps
-/

namespace Verif.Life

open Rmm
open Atom (MInv PcOk Keeps two rdA)

/-- The granules a command under way has in another state than the memory without it. -/
def tr : Pc → List (Nat × GSt)
  | .nTake _ _ _ _ _ done => done.map (·, .recAux)
  | .nLock _ _ _ q _ _ => q.auxList.map (·, .recAux)
  | .nFree _ _ _ _ _ todo => todo.map (·, .recAux)
  | .dFree rd r k => (rd, .rd) :: (List.range' k (r.nroots - k)).map fun j => (r.root + 4096 * j, .rtt)
  | .kFree recA _ todo => (recA, .recd) :: todo.map (·, .recAux)
  | _ => []

/-- The VMID a command under way has reserved. -/
def vmOf : Pc → Option Nat
  | .cLock _ _ q _ _ | .cUndo _ _ q => some q.vmid
  | _ => none

/-- The realm to which a command under way still holds a reference. -/
def putOf : Pc → Option Nat
  | .kFree _ rd _ | .kPut _ rd => some rd
  | _ => none

/-- How many CPUs still hold a reference to realm `a`. -/
def cnt : Nat → (Nat → Pc) → Nat → Nat
  | 0, _, _ => 0
  | n + 1, pc, a => cnt n pc a + if putOf (pc n) = some a then 1 else 0

/-- The changes are those of the commands under way. -/
structure Track (n : Nat) (pc : Nat → Pc) (T : Ov) : Prop where
  own : ∀ {a e c}, T.g a = some (e, c) → ∃ i < n, (a, e) ∈ tr (pc i)
  has : ∀ {i a e}, i < n → (a, e) ∈ tr (pc i) → ∃ c, T.g a = some (e, c)
  one : ∀ {i j a e e'}, i < n → j < n → (a, e) ∈ tr (pc i) → (a, e') ∈ tr (pc j) → i = j
  nd : ∀ {i}, i < n → ((tr (pc i)).map (·.1)).Nodup
  vm : ∀ v, T.vm v = true ↔ ∃ i < n, vmOf (pc i) = some v
  vm1 : ∀ {i j v}, i < n → j < n → vmOf (pc i) = some v → vmOf (pc j) = some v → i = j
  rc : ∀ a, T.rc a = cnt n pc a

/-- A CPU's position fits. -/
def LOk (P : Plat) (n : Nat) (pc : Nat → Pc) (s : State) (T : Ov) (i : Nat) : Pc → Prop
  | .cReserve _ _ q => Features.validateRealmParams P.hw q.p = some true
  | .cLock rd _ q todo done => Features.validateRealmParams P.hw q.p = some true ∧ q.vmid < P.vmidCount ∧
      ¬ (q.rttBase ≤ rd ∧ rd < q.rttBase + q.p.rttNumStart * 4096) ∧ order rd q = done ++ todo ∧
      ∀ x ∈ done, P.tracked x = true ∧ s.st x = .delegated
  | .dSum rd r k acc => P.tracked rd = true ∧ s.st rd = .rd ∧ rdOf s rd = r ∧ s.rc rd = 0 ∧ T.rc rd = 0 ∧
      k ≤ r.nroots ∧ (acc = 0 ↔ ∀ j < k, s.rc (r.root + 4096 * j) = 0) ∧
      ∀ l < n, l ≠ i → (∀ j < k, r.root + 4096 * j ∉ held (pc l)) ∧
        (0 < k → ∀ op c, pc l = .walk (.root op c) → rdA op ≠ rd)
  | .dFree _ r k => k ≤ r.nroots
  | .nTake _ _ _ q todo done => q.numAux ≤ 16 ∧ q.auxList = done ++ todo ∧
      ∀ a ∈ done, P.tracked a = true ∧ T.g a = some (.recAux, .page 0)
  | .nLock rd recA _ q todo done => q.numAux ≤ 16 ∧
      (∀ a ∈ q.auxList, P.tracked a = true ∧ T.g a = some (.recAux, .page 0)) ∧
      two (recA, .delegated) (rd, .rd) = done ++ todo ∧
      ∀ p ∈ done, P.tracked p.1 = true ∧ s.st p.1 = p.2 ∧ p.1 ∉ q.auxList
  | .nFree _ _ _ _ ret todo => ret.status ≠ 0 ∧ ∀ a ∈ todo, T.g a = some (.recAux, .page 0)
  | _ => True

/-- The invariant: the memory is `s` with the changes `T`. -/
structure LInv (P : Plat) (n : Nat) (m : M) (s : State) (T : Ov) : Prop where
  mem : m.s = ov T s
  low : MInv P n (low m s)
  sep : Sep T s
  trk : Track n m.pc T
  excl : ∀ i < n, ∀ j < n, i ≠ j → ∀ x ∈ held (m.pc i), x ∉ held (m.pc j)
  mine : ∀ i < n, ∀ x ∈ held (m.pc i), ∀ {e c}, T.g x = some (e, c) → (x, e) ∈ tr (m.pc i)
  ok : ∀ i < n, LOk P n m.pc s T i (m.pc i)

/-! ## Counting -/

theorem cnt_upd_ge (pc : Nat → Pc) (i : Nat) (p : Pc) (a : Nat) : ∀ n, n ≤ i → cnt n (upd pc i p) a = cnt n pc a := by
  intro n
  induction n with
  | zero => intro _; rfl
  | succ n ih =>
    intro h
    unfold cnt
    rw [ih (by omega), upd_ne _ _ _ (by omega)]

theorem cnt_upd (pc : Nat → Pc) (i : Nat) (p : Pc) (a : Nat) : ∀ n, i < n →
    cnt n (upd pc i p) a + (if putOf (pc i) = some a then 1 else 0) =
      cnt n pc a + (if putOf p = some a then 1 else 0) := by
  intro n
  induction n with
  | zero => intro h; omega
  | succ n ih =>
    intro h
    unfold cnt
    by_cases hn : i = n
    · subst hn
      rw [cnt_upd_ge _ _ _ _ _ (le_refl _), upd_same]; omega
    · rw [upd_ne _ _ _ (Ne.symm hn)]
      have := ih (by omega)
      omega

theorem cnt_pos {pc : Nat → Pc} {a : Nat} : ∀ {n}, cnt n pc a ≠ 0 → ∃ i < n, putOf (pc i) = some a := by
  intro n
  induction n with
  | zero => intro h; exact absurd rfl h
  | succ n ih =>
    intro h
    by_cases hp : putOf (pc n) = some a
    · exact ⟨n, by omega, hp⟩
    · unfold cnt at h
      rw [if_neg hp] at h
      obtain ⟨i, hi, h1⟩ := ih h
      exact ⟨i, by omega, h1⟩

/-! ## Facts about positions -/

theorem tr_life {p : Pc} {x} (h : x ∈ tr p) : p.life = true := by
  cases p <;> first | rfl | (simp [tr] at h)

theorem vmOf_life {p : Pc} {x} (h : vmOf p = some x) : p.life = true := by
  cases p <;> first | rfl | (simp [vmOf] at h)

theorem putOf_life {p : Pc} {x} (h : putOf p = some x) : p.life = true := by
  cases p <;> first | rfl | (simp [putOf] at h)

/-- Realm descriptors and RECs on the way out are locked. -/
theorem tr_held {p : Pc} {a : Nat} {e : GSt} (h : (a, e) ∈ tr p) : a ∈ held p ∨ e = .recAux ∨ e = .rtt := by
  cases p <;> simp [tr, held] at h ⊢ <;> aesop

theorem others_of {n : Nat} {m : M} {i j : Nat} (hj : j < n) (hne : j ≠ i) (hl : (m.pc j).life = true) :
    others n m i = true := by
  unfold others
  rw [List.any_eq_true]
  exact ⟨j, List.mem_range.mpr hj, by simp [hne, hl]⟩

section
variable {P : Plat} {n : Nat} {m : M} {s : State} {T : Ov}

theorem LInv.free (I : LInv P n m s T) {x : Nat} (hf : free n m x = true) {e : GSt} {c : Content}
    (h : T.g x = some (e, c)) : e = .recAux ∨ e = .rtt := by
  obtain ⟨i, hi, hm⟩ := I.trk.own h
  rcases tr_held hm with h1 | h1
  · exact absurd h1 ((free_iff ..).mp hf i hi)
  · exact h1

/-- A granule taken by another CPU. -/
theorem LInv.busy (I : LInv P n m s T) {i x : Nat} (h : T.g x ≠ none) (hx : ∀ e, (x, e) ∉ tr (m.pc i)) :
    others n m i = true := by
  cases hg : T.g x with
  | none => exact absurd hg h
  | some y =>
    obtain ⟨e, c⟩ := y
    obtain ⟨j, hj, hm⟩ := I.trk.own hg
    refine others_of hj ?_ (tr_life hm)
    rintro rfl
    exact hx _ hm

theorem LInv.busyRc (I : LInv P n m s T) {i x : Nat} (h : T.rc x ≠ 0) (hx : putOf (m.pc i) ≠ some x) :
    others n m i = true := by
  rw [I.trk.rc] at h
  obtain ⟨j, hj, hm⟩ := cnt_pos h
  exact others_of hj (by rintro rfl; exact hx hm) (putOf_life hm)

theorem LInv.busyVm (I : LInv P n m s T) {i v : Nat} (h : T.vm v = true) (hx : vmOf (m.pc i) ≠ some v) :
    others n m i = true := by
  obtain ⟨j, hj, hm⟩ := (I.trk.vm v).mp h
  exact others_of hj (by rintro rfl; exact hx hm) (vmOf_life hm)

/-- No command under way: no changes. -/
theorem LInv.quiet (I : LInv P n m s T) (h : ∀ i < n, (m.pc i).life = false) : m.s = s := by
  have h1 : ∀ a, T.g a = none := by
    intro a
    cases hg : T.g a with
    | none => rfl
    | some y =>
      obtain ⟨e, c⟩ := y
      obtain ⟨j, hj, hm⟩ := I.trk.own hg
      exact absurd (tr_life hm) (by rw [h j hj]; simp)
  have h2 : ∀ a, T.rc a = 0 := by
    intro a
    by_contra hc
    rw [I.trk.rc] at hc
    obtain ⟨j, hj, hm⟩ := cnt_pos hc
    exact absurd (putOf_life hm) (by rw [h j hj]; simp)
  have h3 : ∀ v, T.vm v = false := by
    intro v
    by_contra hc
    obtain ⟨j, hj, hm⟩ := (I.trk.vm v).mp (by simpa using hc)
    exact absurd (vmOf_life hm) (by rw [h j hj]; simp)
  rw [I.mem]
  cases s
  simp only [ov, State.mk.injEq, true_and]
  refine ⟨?_, ?_, ?_, ?_⟩
  · funext a; exact ovSt_none _ (h1 a)
  · funext a; exact ovRc_zero _ (h2 a)
  · funext a; exact ovMem_none _ (h1 a)
  · funext v; simp [ovVm, h3 v]

/-! ## One CPU moves -/

/-- The changes after a step of CPU `i`. -/
structure TrUpd (n : Nat) (pc : Nat → Pc) (T : Ov) (i : Nat) (p : Pc) (T' : Ov) : Prop where
  same : ∀ a, (∀ e, (a, e) ∉ tr p) → (∀ e, (a, e) ∉ tr (pc i)) → T'.g a = T.g a
  has : ∀ a e, (a, e) ∈ tr p → ∃ c, T'.g a = some (e, c)
  gone : ∀ a e, (a, e) ∈ tr (pc i) → (∀ e, (a, e) ∉ tr p) → T'.g a = none
  new : ∀ a e, (a, e) ∈ tr p → (∃ e', (a, e') ∈ tr (pc i)) ∨ T.g a = none
  nd : ((tr p).map (·.1)).Nodup
  vm : ∀ v, T'.vm v = true ↔ (vmOf p = some v ∨ (T.vm v = true ∧ vmOf (pc i) ≠ some v))
  vm1 : ∀ v, vmOf p = some v → vmOf (pc i) = some v ∨ T.vm v = false
  rc : ∀ a, T'.rc a + (if putOf (pc i) = some a then 1 else 0) = T.rc a + (if putOf p = some a then 1 else 0)

theorem Track.upd {pc : Nat → Pc} (K : Track n pc T) {i : Nat} (hi : i < n) {p : Pc} {T' : Ov}
    (U : TrUpd n pc T i p T') : Track n (upd pc i p) T' := by
  have key : ∀ {j a e e'}, j < n → j ≠ i → (a, e) ∈ tr p → (a, e') ∉ tr (pc j) := by
    intro j a e e' hj hne h1 h2
    rcases U.new a e h1 with ⟨e'', h3⟩ | h3
    · exact hne (K.one hj hi h2 h3)
    · obtain ⟨c, hc⟩ := K.has hj h2
      rw [h3] at hc; cases hc
  refine ⟨?_, ?_, ?_, ?_, ?_, ?_, ?_⟩
  · intro a e c h
    by_cases h1 : ∃ e', (a, e') ∈ tr p
    · obtain ⟨e', h1⟩ := h1
      obtain ⟨c', h2⟩ := U.has a e' h1
      rw [h] at h2; cases h2
      exact ⟨i, hi, by rw [upd_same]; exact h1⟩
    · have h1 : ∀ e', (a, e') ∉ tr p := fun e' h2 => h1 ⟨e', h2⟩
      by_cases h2 : ∃ e', (a, e') ∈ tr (pc i)
      · obtain ⟨e', h2⟩ := h2
        rw [U.gone a e' h2 h1] at h; cases h
      · have h2 : ∀ e', (a, e') ∉ tr (pc i) := fun e' h3 => h2 ⟨e', h3⟩
        rw [U.same a h1 h2] at h
        obtain ⟨j, hj, hm⟩ := K.own h
        refine ⟨j, hj, ?_⟩
        rw [upd_ne]
        · exact hm
        · rintro rfl; exact h2 _ hm
  · intro j a e hj h
    by_cases hji : j = i
    · subst hji; rw [upd_same] at h; exact U.has a e h
    · rw [upd_ne _ _ _ hji] at h
      obtain ⟨c, hc⟩ := K.has hj h
      refine ⟨c, ?_⟩
      rw [U.same a (fun e' h1 => key hj hji h1 h) (fun e' h1 => hji (K.one hj hi h h1)), hc]
  · intro j k a e e' hj hk h1 h2
    by_cases hji : j = i
    · subst hji
      rw [upd_same] at h1
      by_cases hki : k = j
      · exact hki.symm
      · rw [upd_ne _ _ _ hki] at h2; exact absurd h2 (key hk hki h1)
    · rw [upd_ne _ _ _ hji] at h1
      by_cases hki : k = i
      · subst hki; rw [upd_same] at h2; exact absurd h1 (key hj hji h2)
      · rw [upd_ne _ _ _ hki] at h2; exact K.one hj hk h1 h2
  · intro j hj
    by_cases hji : j = i
    · subst hji; rw [upd_same]; exact U.nd
    · rw [upd_ne _ _ _ hji]; exact K.nd hj
  · intro v
    rw [U.vm]
    constructor
    · rintro (h1 | ⟨h1, h2⟩)
      · exact ⟨i, hi, by rw [upd_same]; exact h1⟩
      · obtain ⟨j, hj, h3⟩ := (K.vm v).mp h1
        exact ⟨j, hj, by rw [upd_ne _ _ _ (by rintro rfl; exact h2 h3)]; exact h3⟩
    · rintro ⟨j, hj, h1⟩
      by_cases hji : j = i
      · subst hji; rw [upd_same] at h1; exact Or.inl h1
      · rw [upd_ne _ _ _ hji] at h1
        exact Or.inr ⟨(K.vm v).mpr ⟨j, hj, h1⟩, fun h2 => hji (K.vm1 hj hi h1 h2)⟩
  · intro j k v hj hk h1 h2
    have key : ∀ l, l < n → l ≠ i → vmOf p = some v → vmOf (pc l) ≠ some v := by
      intro l hl hne h3 h4
      rcases U.vm1 v h3 with h5 | h5
      · exact hne (K.vm1 hl hi h4 h5)
      · rw [(K.vm v).mpr ⟨l, hl, h4⟩] at h5; cases h5
    by_cases hji : j = i
    · subst hji
      rw [upd_same] at h1
      by_cases hki : k = j
      · exact hki.symm
      · rw [upd_ne _ _ _ hki] at h2; exact absurd h2 (key k hk hki h1)
    · rw [upd_ne _ _ _ hji] at h1
      by_cases hki : k = i
      · subst hki; rw [upd_same] at h2; exact absurd h1 (key j hj hji h2)
      · rw [upd_ne _ _ _ hki] at h2; exact K.vm1 hj hk h1 h2
  · intro a
    have h1 := U.rc a
    have h2 := cnt_upd pc i p a n hi
    have h3 := K.rc a
    omega

/-- No change of the changes. -/
theorem TrUpd.refl {pc : Nat → Pc} (K : Track n pc T) {i : Nat} (hi : i < n) {p : Pc} (h1 : tr p = tr (pc i))
    (h2 : vmOf p = vmOf (pc i)) (h3 : putOf p = putOf (pc i)) : TrUpd n pc T i p T := by
  refine ⟨fun _ _ _ => rfl, ?_, ?_, ?_, ?_, ?_, ?_, ?_⟩
  · intro a e h; rw [h1] at h; exact K.has hi h
  · intro a e h h'; rw [h1] at h'; exact absurd h (h' e)
  · intro a e h; rw [h1] at h; exact Or.inl ⟨e, h⟩
  · rw [h1]; exact K.nd hi
  · intro v
    rw [h2]
    constructor
    · intro h
      by_cases hv : vmOf (pc i) = some v
      · exact Or.inl hv
      · exact Or.inr ⟨h, hv⟩
    · rintro (h | ⟨h, _⟩)
      · exact (K.vm v).mpr ⟨i, hi, h⟩
      · exact h
  · intro v h; rw [h2] at h; exact Or.inl h
  · intro a; rw [h3]

/-- CPU `i` moves to position `p`, the memory becomes `s'` with the changes `T'`. -/
theorem LInv.step (I : LInv P n m s T) {i : Nat} (hi : i < n) {p : Pc} {s2 s' : State} {T' : Ov}
    (hmem : s2 = ov T' s') (hlow : MInv P n (Life.low ⟨s2, upd m.pc i p⟩ s')) (hsep : Sep T' s')
    (U : TrUpd n m.pc T i p T')
    (hheld : ∀ x ∈ held p, x ∈ held (m.pc i) ∨ Life.free n m x = true)
    (hmine : ∀ x ∈ held p, ∀ {e c}, T'.g x = some (e, c) → (x, e) ∈ tr p)
    (hnew : ∀ j < n, j ≠ i → ∀ x ∈ held (m.pc j), ∀ e, (x, e) ∈ tr p → ∃ e', (x, e') ∈ tr (m.pc i))
    (hkeep : ∀ j < n, j ≠ i → ∀ x ∈ held (m.pc j),
      s.st x = .rd ∨ s.st x = .delegated ∨ s.st x = .recd ∨ s.st x = .rtt → Keeps s s' x)
    (hsum : ∀ j < n, j ≠ i → ∀ {rd r k acc}, m.pc j = .dSum rd r k acc → T'.rc rd = 0 ∧
      (∀ l < k, r.root + 4096 * l ∉ held p ∧ s'.rc (r.root + 4096 * l) = s.rc (r.root + 4096 * l)) ∧
      (0 < k → ∀ op c, p = .walk (.root op c) → rdA op ≠ rd))
    (hok : LOk P n (upd m.pc i p) s' T' i p) : LInv P n ⟨s2, upd m.pc i p⟩ s' T' := by
  have key : ∀ {j a e e'}, j < n → j ≠ i → (a, e) ∈ tr p → (a, e') ∉ tr (m.pc j) := by
    intro j a e e' hj hne h1 h2
    rcases U.new a e h1 with ⟨e'', h3⟩ | h3
    · exact hne (I.trk.one hj hi h2 h3)
    · obtain ⟨c, hc⟩ := I.trk.has hj h2
      rw [h3] at hc; cases hc
  have hT : ∀ j < n, j ≠ i → ∀ a e, (a, e) ∈ tr (m.pc j) → T'.g a = T.g a := by
    intro j hj hne a e h
    exact U.same a (fun e' h1 => key hj hne h1 h) (fun e' h1 => hne (I.trk.one hj hi h h1))
  refine ⟨hmem, hlow, hsep, I.trk.upd hi U, ?_, ?_, ?_⟩
  · intro j hj k hk hne x hx
    dsimp only at hx ⊢
    by_cases hji : j = i
    · rw [hji, upd_same] at hx
      have hki : k ≠ i := fun hh => hne (hji.trans hh.symm)
      rw [upd_ne _ _ _ hki]
      rcases hheld x hx with h1 | h1
      · exact I.excl i hi k hk hki.symm x h1
      · exact (free_iff ..).mp h1 k hk
    · rw [upd_ne _ _ _ hji] at hx
      by_cases hki : k = i
      · rw [hki, upd_same]
        intro hx'
        rcases hheld x hx' with h1 | h1
        · exact I.excl i hi j hj (Ne.symm hji) x h1 hx
        · exact (free_iff ..).mp h1 j hj hx
      · rw [upd_ne _ _ _ hki]; exact I.excl j hj k hk hne x hx
  · intro j hj x hx e c hg
    dsimp only at hx ⊢
    by_cases hji : j = i
    · rw [hji, upd_same] at hx ⊢; exact hmine x hx hg
    · rw [upd_ne _ _ _ hji] at hx ⊢
      by_cases h1 : ∃ e', (x, e') ∈ tr (m.pc i)
      · obtain ⟨e', h1⟩ := h1
        obtain ⟨c', h2⟩ := I.trk.has hi h1
        exact absurd (I.trk.one hi hj h1 (I.mine j hj x hx h2)) (Ne.symm hji)
      · have h1' : ∀ e', (x, e') ∉ tr (m.pc i) := fun e' h2 => h1 ⟨e', h2⟩
        have h2 : ∀ e', (x, e') ∉ tr p := fun e' h3 => h1 (hnew j hj hji x hx e' h3)
        rw [U.same x h2 h1'] at hg
        exact I.mine j hj x hx hg
  · intro j hj
    dsimp only
    by_cases hji : j = i
    · rw [hji, upd_same]; exact hok
    · rw [upd_ne _ _ _ hji]
      have o := I.ok j hj
      have hk := hkeep j hj hji
      have hTj := hT j hj hji
      have hs := @hsum j hj hji
      cases hp : m.pc j with
      | walk p => trivial
      | cReserve rd pA q => rw [hp] at o; exact o
      | cLock rd pA q todo done =>
        rw [hp] at o hk
        obtain ⟨o1, o2, o3, o4, o5⟩ := o
        refine ⟨o1, o2, o3, o4, fun x hx => ⟨(o5 x hx).1, ?_⟩⟩
        rw [(hk x hx (Or.inr (Or.inl (o5 x hx).2))).st, (o5 x hx).2]
      | cUndo rd pA q => trivial
      | dSum rd r k acc =>
        rw [hp] at o hk
        obtain ⟨o1, o2, o3, o4, o5, o6, o7, o8⟩ := o
        obtain ⟨h1, h2, h3⟩ := hs hp
        have kr := hk rd (by simp [held]) (Or.inl o2)
        have hm : s'.mem rd = s.mem rd ∧ (s.rc rd = 0 → s'.rc rd = 0) := by
          rcases kr.mem with ⟨h4, _⟩ | h4
          · rw [o2] at h4; cases h4
          · exact h4
        refine ⟨o1, by rw [kr.st, o2], ?_, hm.2 o4, h1, o6, ?_, ?_⟩
        · rw [← o3]; unfold rdOf getRd; rw [hm.1]
        · rw [o7]
          constructor
          · intro h l hl; rw [(h2 l hl).2]; exact h l hl
          · intro h l hl; rw [← (h2 l hl).2]; exact h l hl
        · intro l hl hne
          by_cases hli : l = i
          · rw [hli, upd_same]; exact ⟨fun j' hj' => (h2 j' hj').1, h3⟩
          · rw [upd_ne _ _ _ hli]; exact o8 l hl hne
      | dFree rd r k => rw [hp] at o; exact o
      | nTake rd recA pA q todo done =>
        rw [hp] at o hTj
        obtain ⟨o1, o2, o3⟩ := o
        refine ⟨o1, o2, fun a ha => ⟨(o3 a ha).1, ?_⟩⟩
        rw [hTj a .recAux (by simp [tr, ha]), (o3 a ha).2]
      | nLock rd recA pA q todo done =>
        rw [hp] at o hTj hk
        obtain ⟨o1, o2, o3, o4⟩ := o
        refine ⟨o1, fun a ha => ⟨(o2 a ha).1, ?_⟩, o3, fun x hx => ⟨(o4 x hx).1, ?_, (o4 x hx).2.2⟩⟩
        · rw [hTj a .recAux (by simp [tr, ha]), (o2 a ha).2]
        · have h1 := (o4 x hx).2.1
          have h2 : x.2 = .rd ∨ x.2 = .delegated := by
            have : x ∈ two (recA, .delegated) (rd, GSt.rd) := by rw [o3]; exact List.mem_append_left _ hx
            rw [Atom.mem_two] at this
            rcases this with rfl | rfl <;> simp
          rw [(hk x.1 (List.mem_map_of_mem hx) (by rw [h1]; tauto)).st, h1]
      | nFree rd recA pA q ret todo =>
        rw [hp] at o hTj
        refine ⟨o.1, fun a ha => ?_⟩
        rw [hTj a .recAux (by simp [tr, ha]), o.2 a ha]
      | kFree recA rd todo => trivial
      | kPut recA rd => trivial

/-- CPU `i` moves, the memory stays. -/
theorem LInv.move (I : LInv P n m s T) {i : Nat} (hi : i < n) {p : Pc} (hb : base p = base (m.pc i) ∨ base p = .idle)
    (h1 : tr p = tr (m.pc i)) (h2 : vmOf p = vmOf (m.pc i)) (h3 : putOf p = putOf (m.pc i))
    (hheld : ∀ x ∈ held p, x ∈ held (m.pc i) ∨ (Life.free n m x = true ∧ T.g x = none ∧ s.st x ≠ .rtt))
    (hr : ∀ op c, p ≠ .walk (.root op c)) (hok : LOk P n (upd m.pc i p) s T i p) :
    LInv P n ⟨m.s, upd m.pc i p⟩ s T := by
  obtain ⟨ti, di, rl, h, hp, hd⟩ := I.low
  have h' : InvG P s ti di rl := h
  refine I.step hi I.mem ?_ I.sep (.refl I.trk hi h1 h2 h3) ?_ ?_ ?_ (fun _ _ _ _ _ _ => .refl _ _) ?_ hok
  · have hpc : (Life.low ⟨m.s, upd m.pc i p⟩ s).pc = upd (Life.low m s).pc i (base p) := by
      funext j
      simp only [Life.low, upd]
      split <;> rfl
    have := MInv.move (m := Life.low m s) h hp hd (i := i) (p := base p) (by
      rcases hb with hb | hb
      · rw [hb]; exact hp i hi
      · rw [hb]; trivial) (by
      intro x hx
      rcases hb with hb | hb
      · left; rw [hb] at hx; exact hx
      · rw [hb] at hx; cases hx) hi
    rw [← hpc] at this
    exact this
  · intro x hx; exact (hheld x hx).imp id (fun h => h.1)
  · intro x hx e c hg
    rcases hheld x hx with h4 | h4
    · rw [h1]; exact I.mine i hi x h4 hg
    · rw [h4.2.1] at hg; cases hg
  · intro j hj hne x hx e he; rw [h1] at he; exact ⟨e, he⟩
  · intro j hj hne rd r k acc hpj
    have o := I.ok j hj
    rw [hpj] at o
    obtain ⟨o1, o2, o3, o4, o5, o6, o7, o8⟩ := o
    refine ⟨o5, fun l hl => ⟨?_, rfl⟩, fun _ op c hh => absurd hh (hr op c)⟩
    intro hx
    rcases hheld _ hx with h4 | h4
    · exact (o8 i hi (Ne.symm hne)).1 l hl h4
    · have := ((h'.rds rd o2).roots l (by rw [o3]; omega)).1
      rw [o3] at this
      exact h4.2.2 this

/-- CPU `i` ends its command, the memory stays. -/
theorem LInv.idle (I : LInv P n m s T) {i : Nat} (hi : i < n)
    (h1 : tr (m.pc i) = []) (h2 : vmOf (m.pc i) = none) (h3 : putOf (m.pc i) = none) :
    LInv P n ⟨m.s, upd m.pc i .idle⟩ s T :=
  I.move hi (Or.inr rfl) (by rw [h1]; rfl) (by rw [h2]; rfl) (by rw [h3]; rfl) (fun x hx => by cases hx)
    (fun op c hh => by cases hh) trivial

end

end Verif.Life
