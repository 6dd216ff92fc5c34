import Verif.Vmid.Model

/-!
# C22, on the bitmap and with concurrent calls
-/

namespace Verif.Vmid

variable {T R : Type} [DecidableEq T] [DecidableEq R]

/-- Is the VMID reserved? -/
def used (m : Map) (v : Nat) : Bool := (m (v / 64)).getLsbD (v % 64)

theorem mask_bit (n i : Nat) (hn : n < 64) : (1#64 <<< n).getLsbD i = decide (i = n) := by
  simp only [BitVec.getLsbD_shiftLeft, BitVec.getLsbD_one]
  by_cases h : i = n
  · subst h; simp [hn]
  · by_cases h1 : i < n
    · simp [h, h1]
    · have : ¬ (i - n = 0) := by omega
      simp [h, this]

theorem bitSet_fst (w : BitVec 64) (n i : Nat) (hn : n < 64) : (bitSet w n).1.getLsbD i = (w.getLsbD i || decide (i = n)) := by
  simp only [bitSet, BitVec.getLsbD_or, mask_bit n i hn]

theorem bitSet_snd (w : BitVec 64) (n : Nat) (hn : n < 64) : (bitSet w n).2 = w.getLsbD n := by
  simp only [bitSet]
  cases h : w.getLsbD n
  · have : w &&& 1#64 <<< n = 0#64 := by
      apply BitVec.eq_of_getLsbD_eq
      intro i hi
      rw [BitVec.getLsbD_and, mask_bit n i hn]
      by_cases hin : i = n
      · subst hin; simp [h]
      · simp [hin]
    simp [this]
  · simp only [bne_iff_ne, ne_eq]
    intro hc
    have := congrArg (fun x => BitVec.getLsbD x n) hc
    simp only [BitVec.getLsbD_and, mask_bit n n hn, h] at this
    simp at this

theorem bitClear_bit (w : BitVec 64) (n i : Nat) (hn : n < 64) (hi : i < 64) :
    (bitClear w n).getLsbD i = (w.getLsbD i && !decide (i = n)) := by
  simp only [bitClear, BitVec.getLsbD_and, BitVec.getLsbD_not, mask_bit n i hn]
  simp [hi]

theorem used_wr (m m' : Map) (v u : Nat) (w : BitVec 64) (h : wr m (v / 64) w = some m') :
    used m' u = if u / 64 = v / 64 then w.getLsbD (u % 64) else used m u := by
  unfold wr at h
  split at h
  · cases h
    unfold used
    by_cases hv : u / 64 = v / 64
    · simp [hv]
    · simp [hv]
  · cases h

theorem count_le (f : Bool) : count f ≤ 65536 := by cases f <;> decide

/-- **C22.** `vmid_reserve` stays within the array, succeeds exactly for a VMID that is in range and
free, and reserves it and no other. -/
theorem C22_reserve (f : Bool) (m : Map) (v : BitVec 32) :
    ∃ m' b, reserve f m v = some (m', b) ∧
      (b = true ↔ v.toNat < count f ∧ used m v.toNat = false) ∧
      ∀ u, used m' u = (used m u || (b && decide (u = v.toNat))) := by
  unfold reserve
  by_cases hv : v.toNat ≥ count f
  · rw [if_pos hv]
    refine ⟨m, false, rfl, ?_, by simp⟩
    simp; omega
  · rw [if_neg hv]
    have hc := count_le f
    have hw : v.toNat / 64 < words := by unfold words; omega
    have hn : v.toNat % 64 < 64 := Nat.mod_lt _ (by decide)
    refine ⟨_, _, by simp only [wr, if_pos hw, Option.map_some]; rfl, ?_, ?_⟩
    · rw [bitSet_snd _ _ hn]
      simp only [used]
      simp; omega
    · intro u
      rw [used_wr m _ v.toNat u _ (by simp only [wr, if_pos hw]; rfl), bitSet_snd _ _ hn, bitSet_fst _ _ _ hn]
      by_cases hq : u / 64 = v.toNat / 64
      · rw [if_pos hq]
        by_cases hr : u % 64 = v.toNat % 64
        · have : u = v.toNat := by omega
          subst this
          simp [used]
        · have : u ≠ v.toNat := by intro h; exact hr (by rw [h])
          simp [used, hq, hr, this]
      · have : u ≠ v.toNat := by intro h; exact hq (by rw [h])
        simp [hq, this]

/-- **C22.** `vmid_free` of a VMID in range stays within the array and frees it and no other. -/
theorem C22_free (f : Bool) (m : Map) (v : BitVec 32) (hv : v.toNat < count f) :
    ∃ m', free f m v = some m' ∧ ∀ u, used m' u = (used m u && !decide (u = v.toNat)) := by
  unfold free
  rw [if_pos hv]
  have hc := count_le f
  have hw : v.toNat / 64 < words := by unfold words; omega
  have hn : v.toNat % 64 < 64 := Nat.mod_lt _ (by decide)
  refine ⟨_, by simp only [wr, if_pos hw]; rfl, ?_⟩
  intro u
  rw [used_wr m _ v.toNat u _ (by simp only [wr, if_pos hw]; rfl), bitClear_bit _ _ _ hn (Nat.mod_lt _ (by decide))]
  by_cases hq : u / 64 = v.toNat / 64
  · rw [if_pos hq]
    by_cases hr : u % 64 = v.toNat % 64
    · have : u = v.toNat := by omega
      subst this
      simp
    · have : u ≠ v.toNat := by intro h; exact hr (by rw [h])
      simp [used, hq, hr, this]
  · have : u ≠ v.toNat := by intro h; exact hq (by rw [h])
    simp [hq, this]

/-- Who has a VMID: a CPU that is creating a Realm, or a Realm. -/
def has (s : St T R) (o : T ⊕ R) (v : BitVec 32) : Prop :=
  match o with
  | .inl t => s.pc t = .created v
  | .inr r => s.rd r = .live v

structure Inv (f : Bool) (s : St T R) : Prop where
  uniq : ∀ o o' v, has s o v → has s o' v → o = o'
  range : ∀ o v, has s o v → v.toNat < count f
  used : ∀ n, used s.map n = true ↔ ∃ o v, has s o v ∧ v.toNat = n

omit [DecidableEq T] [DecidableEq R] in
theorem inv_init (f : Bool) : Inv f (init : St T R) := by
  constructor
  · intro o o' v h; cases o <;> simp [has, init] at h
  · intro o v h; cases o <;> simp [has, init] at h
  · intro n
    simp only [init, used, BitVec.ofNat_eq_ofNat, BitVec.getLsbD_zero, Bool.false_eq_true, false_iff, not_exists, not_and]
    intro o v h; cases o <;> simp [has] at h

omit [DecidableEq T] [DecidableEq R] in
/-- `o` gives its VMID back. -/
theorem drop (f : Bool) (s : St T R) (i : Inv f s) (o : T ⊕ R) (v : BitVec 32) (h : has s o v) (m' : Map)
    (hu : ∀ u, used m' u = (used s.map u && !decide (u = v.toNat))) (s' : St T R) (hm : s'.map = m')
    (hnew : ∀ o' w, has s' o' w ↔ o' ≠ o ∧ has s o' w) : Inv f s' := by
  constructor
  · intro a b w ha hb; exact i.uniq a b w ((hnew _ _).1 ha).2 ((hnew _ _).1 hb).2
  · intro a w ha; exact i.range a w ((hnew _ _).1 ha).2
  · intro n
    simp only [hm, hu, Bool.and_eq_true, i.used, hnew, Bool.not_eq_true', decide_eq_false_iff_not]
    constructor
    · rintro ⟨⟨a, w, ha, e⟩, hn⟩
      refine ⟨a, w, ⟨?_, ha⟩, e⟩
      rintro rfl
      have : w = v := by
        cases a <;> simp only [has] at h ha <;> rw [h] at ha <;> cases ha <;> rfl
      subst this
      exact hn e.symm
    · rintro ⟨a, w, ⟨hne, ha⟩, e⟩
      refine ⟨⟨a, w, ha, e⟩, ?_⟩
      intro hn
      have : w = v := BitVec.eq_of_toNat_eq (by omega)
      subst this
      exact hne (i.uniq _ _ _ ha h)

theorem step_inv (f : Bool) (s : St T R) (i : Inv f s) (a : Act T R) : ∃ r, step f s a = some r ∧ Inv f (r.getD s) := by
  cases a with
  | reserve t v =>
    simp only [step]
    split
    case isFalse => exact ⟨none, rfl, i⟩
    case isTrue hpc =>
    obtain ⟨m', b, hr, hb, hu⟩ := C22_reserve f s.map (v.zeroExtend 32)
    rw [hr]
    refine ⟨_, rfl, ?_⟩
    simp only [Option.getD_some]
    cases b with
    | false =>
      constructor
      · intro o o' w h h'; exact i.uniq o o' w (by cases o <;> simpa [has] using h) (by cases o' <;> simpa [has] using h')
      · intro o w h; exact i.range o w (by cases o <;> simpa [has] using h)
      · intro n
        simp only [hu, Bool.false_and, Bool.or_false]
        rw [i.used]
        constructor <;> rintro ⟨o, w, h, e⟩ <;> exact ⟨o, w, by cases o <;> simpa [has] using h, e⟩
    | true =>
      obtain ⟨h1, h2⟩ := hb.1 rfl
      have hno : ∀ o w, has s o w → w ≠ v.zeroExtend 32 := by
        rintro o w h rfl
        have := (i.used _).2 ⟨o, _, h, rfl⟩
        rw [this] at h2; cases h2
      have hnew : ∀ o w, has { s with map := m', pc := fun u => if u = t ∧ true = true then Pc.created (v.zeroExtend 32) else s.pc u } o w ↔
          (o = .inl t ∧ w = v.zeroExtend 32) ∨ has s o w := by
        intro o w
        cases o with
        | inl u =>
          simp only [has, Sum.inl.injEq]
          by_cases hu : u = t
          · subst hu; simp [hpc, eq_comm]
          · simp [hu]
        | inr r => simp [has]
      constructor
      · intro o o' w h h'
        rw [hnew] at h h'
        rcases h with ⟨rfl, rfl⟩ | h <;> rcases h' with ⟨rfl, e⟩ | h'
        · rfl
        · exact absurd rfl (hno _ _ h')
        · exact absurd e (hno _ _ h)
        · exact i.uniq _ _ _ h h'
      · intro o w h
        rw [hnew] at h
        rcases h with ⟨-, rfl⟩ | h
        · exact h1
        · exact i.range _ _ h
      · intro n
        rw [exists_congr fun o => exists_congr fun w => and_congr_left fun _ => hnew o w]
        simp only [hu, Bool.true_and, Bool.or_eq_true, decide_eq_true_eq, i.used]
        constructor
        · rintro (⟨o, w, h, e⟩ | h)
          · exact ⟨o, w, Or.inr h, e⟩
          · exact ⟨_, _, Or.inl ⟨rfl, rfl⟩, h.symm⟩
        · rintro ⟨o, w, ⟨rfl, rfl⟩ | h, e⟩
          · exact Or.inr e.symm
          · exact Or.inl ⟨o, w, h, e⟩
  | fail t =>
    simp only [step]
    cases hpc : s.pc t with
    | idle => exact ⟨none, rfl, i⟩
    | created v =>
      obtain ⟨m', hr, hu⟩ := C22_free f s.map v (i.range (.inl t) v hpc)
      simp only [hr]
      refine ⟨_, rfl, ?_⟩
      simp only [Option.getD_some]
      exact drop f s i (.inl t) v hpc m' hu _ rfl (by
        intro o w
        cases o with
        | inl u => simp only [has]; by_cases h : u = t <;> simp [h]
        | inr r => simp [has])
  | commit t r =>
    simp only [step]
    cases hpc : s.pc t with
    | idle => exact ⟨none, rfl, i⟩
    | created v =>
      simp only
      split
      case isFalse => exact ⟨none, rfl, i⟩
      case isTrue hr =>
      refine ⟨_, rfl, ?_⟩
      simp only [Option.getD_some]
      have hnew : ∀ o w, has { s with pc := fun u => if u = t then .idle else s.pc u, rd := fun q => if q = r then .live v else s.rd q } o w ↔
          (o = .inr r ∧ w = v) ∨ (o ≠ .inl t ∧ has s o w) := by
        intro o w
        cases o with
        | inl u => simp only [has]; by_cases h : u = t <;> simp [h]
        | inr q =>
          simp only [has]
          by_cases h : q = r
          · subst h; simp [hr, eq_comm]
          · simp [h]
      constructor
      · intro o o' w h h'
        rw [hnew] at h h'
        rcases h with ⟨rfl, rfl⟩ | ⟨n, h⟩ <;> rcases h' with ⟨rfl, e⟩ | ⟨n', h'⟩
        · rfl
        · exact absurd (i.uniq _ (.inl t) _ h' hpc) n'
        · subst e; exact absurd (i.uniq _ (.inl t) _ h hpc) n
        · exact i.uniq _ _ _ h h'
      · intro o w h
        rw [hnew] at h
        rcases h with ⟨-, rfl⟩ | ⟨-, h⟩
        · exact i.range (.inl t) _ hpc
        · exact i.range _ _ h
      · intro n
        simp only [i.used, hnew]
        constructor
        · rintro ⟨o, w, h, e⟩
          by_cases ho : o = .inl t
          · subst ho
            have : w = v := by simp only [has] at h; rw [hpc] at h; cases h; rfl
            exact ⟨.inr r, w, Or.inl ⟨rfl, this⟩, e⟩
          · exact ⟨o, w, Or.inr ⟨ho, h⟩, e⟩
        · rintro ⟨o, w, ⟨rfl, rfl⟩ | ⟨-, h⟩, e⟩
          · exact ⟨.inl t, w, hpc, e⟩
          · exact ⟨o, w, h, e⟩
  | destroy r =>
    simp only [step]
    cases hrd : s.rd r with
    | none => exact ⟨none, rfl, i⟩
    | dying => exact ⟨none, rfl, i⟩
    | live v =>
      obtain ⟨m', hr, hu⟩ := C22_free f s.map v (i.range (.inr r) v hrd)
      simp only [hr]
      refine ⟨_, rfl, ?_⟩
      simp only [Option.getD_some]
      exact drop f s i (.inr r) v hrd m' hu _ rfl (by
        intro o w
        cases o with
        | inl u => simp [has]
        | inr q => simp only [has]; by_cases h : q = r <;> simp [h])
  | done r =>
    simp only [step]
    split
    case isFalse => exact ⟨none, rfl, i⟩
    case isTrue hr =>
    refine ⟨_, rfl, ?_⟩
    simp only [Option.getD_some]
    have hnew : ∀ o w, has { s with rd := fun q => if q = r then Rd.none else s.rd q } o w ↔ has s o w := by
      intro o w
      cases o with
      | inl u => simp [has]
      | inr q => simp only [has]; by_cases h : q = r <;> simp [h, hr]
    constructor
    · intro o o' w h h'; exact i.uniq o o' w ((hnew _ _).1 h) ((hnew _ _).1 h')
    · intro o w h; exact i.range o w ((hnew _ _).1 h)
    · intro n; simp only [i.used, hnew]

theorem run_inv (f : Bool) (as : List (Act T R)) (s : St T R) (i : Inv f s) : ∃ s', run f s as = some s' ∧ Inv f s' := by
  induction as generalizing s with
  | nil => exact ⟨s, rfl, i⟩
  | cons a as ih =>
    obtain ⟨r, hr, i'⟩ := step_inv f s i a
    obtain ⟨s', h, i''⟩ := ih _ i'
    exact ⟨s', by simp [run, hr, h], i''⟩

/-- **C22.** Whatever CPUs create and destroy Realms at the same time: no assertion of vmid.c fails and
no access is out of bounds; no two of the live Realms and of the calls of REALM_CREATE that are under way
have the same VMID; a VMID is reserved exactly while one of them has it. -/
theorem C22_concurrent (f : Bool) (as : List (Act T R)) : ∃ s : St T R, run f init as = some s ∧
    (∀ r r' v, s.rd r = .live v → s.rd r' = .live v → r = r') ∧
    (∀ t r v, s.pc t = .created v → s.rd r ≠ .live v) ∧
    (∀ t t' v, s.pc t = .created v → s.pc t' = .created v → t = t') ∧
    (∀ n, used s.map n = true ↔ ∃ v : BitVec 32, v.toNat = n ∧ ((∃ t, s.pc t = .created v) ∨ ∃ r, s.rd r = .live v)) ∧
    (∀ n, used s.map n = true → n < count f) := by
  obtain ⟨s, h, i⟩ := run_inv f as init (inv_init f)
  refine ⟨s, h, ?_, ?_, ?_, ?_, ?_⟩
  · intro r r' v h1 h2; exact Sum.inr.inj (i.uniq (.inr r) (.inr r') v h1 h2)
  · intro t r v h1 h2; exact absurd (i.uniq (.inl t) (.inr r) v h1 h2) (by simp)
  · intro t t' v h1 h2; exact Sum.inl.inj (i.uniq (.inl t) (.inl t') v h1 h2)
  · intro n
    rw [i.used]
    constructor
    · rintro ⟨o, v, h, e⟩
      cases o with
      | inl t => exact ⟨v, e, Or.inl ⟨t, h⟩⟩
      | inr r => exact ⟨v, e, Or.inr ⟨r, h⟩⟩
    · rintro ⟨v, e, ⟨t, h⟩ | ⟨r, h⟩⟩
      · exact ⟨.inl t, v, h, e⟩
      · exact ⟨.inr r, v, h, e⟩
  · intro n hn
    obtain ⟨o, v, h, e⟩ := (i.used n).1 hn
    rw [← e]; exact i.range o v h

/-- **C22.** A VMID that is in range and that nobody has can be reserved, and one that somebody has
cannot. -/
theorem C22_available (f : Bool) (as : List (Act T R)) (s : St T R) (h : run f init as = some s) (v : BitVec 16) :
    ∃ m b, reserve f s.map (v.zeroExtend 32) = some (m, b) ∧
      (b = true ↔ v.toNat < count f ∧ (∀ t, s.pc t ≠ .created (v.zeroExtend 32)) ∧ ∀ r, s.rd r ≠ .live (v.zeroExtend 32)) := by
  obtain ⟨s', h', i⟩ := run_inv f as init (inv_init f)
  rw [h] at h'; cases h'
  obtain ⟨m, b, hr, hb, -⟩ := C22_reserve f s.map (v.zeroExtend 32)
  refine ⟨m, b, hr, ?_⟩
  have hz : (v.zeroExtend 32).toNat = v.toNat := by
    have := v.isLt
    simp only [BitVec.zeroExtend, BitVec.toNat_setWidth]; omega
  rw [hb, hz]
  have hu := i.used v.toNat
  constructor
  · rintro ⟨h1, h2⟩
    refine ⟨h1, ?_, ?_⟩
    · intro t ht; rw [hu.2 ⟨.inl t, _, ht, hz⟩] at h2; cases h2
    · intro r hr; rw [hu.2 ⟨.inr r, _, hr, hz⟩] at h2; cases h2
  · rintro ⟨h1, h2, h3⟩
    refine ⟨h1, ?_⟩
    cases hc : used s.map v.toNat
    · rfl
    · obtain ⟨o, w, ho, e⟩ := hu.1 hc
      have : w = v.zeroExtend 32 := BitVec.eq_of_toNat_eq (by rw [hz]; exact e)
      subst this
      cases o with
      | inl t => exact absurd ho (h2 t)
      | inr r => exact absurd ho (h3 r)

/-- Two CPUs want VMID 5 at once, one gets it; when its Realm is destroyed the other one can have it. -/
example : ((run true (init : St Bool Nat) [.reserve false 5, .reserve true 5, .reserve true 70, .commit false 0, .fail true,
    .destroy 0, .reserve true 5, .done 0, .commit true 1]).map fun s => (s.rd 0, s.rd 1, s.map 0, s.map 1)) =
    some (.none, .live 5, 32, 0) := by decide

/-- With 8 bits, VMID 256 is refused. -/
example : (reserve false (fun _ => 0) 256).map (·.2) = some false ∧ (reserve true (fun _ => 0) 256).map (·.2) = some true := by decide

end Verif.Vmid
