import Verif.Rmm.PropRead

/-!
# Walks for the realm's own calls

`realm_ipa_to_pa` and `realm_ipa_get_ripas`, which RSI handlers use to find memory of the
realm they serve.
-/

namespace Verif.Rmm

/-- The RIPAS an entry carries, if `s2tte_has_ripas` (s2tt.c:626-631) holds for it:
`s2tte_get_ripas` (s2tt.c:805-835), or RAM for an assigned RAM entry, as combined in
realm_ipa_helper.c:141-145. -/
def Entry.ripas? : Entry → Option Ripas
  | .unassigned r => some r
  | .assigned r _ => some r
  | _ => none

/-- Result of `realm_ipa_to_pa`: `enum s2_walk_status` with the fields of
`struct s2_walk_result` that are set. -/
inductive IpaRes where
  | invalid
  /-- `WALK_SUCCESS`: physical address, table left locked, depth -/
  | success (pa llt d : Nat)
  /-- `WALK_FAIL`: RIPAS, depth -/
  | fail (r : Ripas) (d : Nat)
  deriving DecidableEq

/-- `realm_ipa_to_pa`: /repo/runtime/rsi/realm_ipa_helper.c:39-94.  The copy of the realm's
parameters in the REC is the one in the realm descriptor (`rec->realm_info`, set when the
REC is created).  `none` for a failed assertion. -/
def ipaToPa (s : State) (r : Rd) (a : Nat) : Option IpaRes :=
  if a % 4096 ≠ 0 ∨ r.inPar a = false then some .invalid
  else
    match walk s r a 0 with
    | none => none
    | some w =>
      match getTab s w.g with
      | none => none
      | some t =>
        match t w.i with
        | .assigned .ram pa => some (.success (pa + a % sz w.d) w.g w.d)
        | .assigned .destroyed _ => some (.fail .destroyed w.d)
        | .unassigned .destroyed => some (.fail .destroyed w.d)
        | .unassigned .ram => some (.fail .ram w.d)
        | _ => some (.fail .empty w.d)

/-- The loop of `realm_ipa_get_ripas`: realm_ipa_helper.c:137-161.  The first argument that
recursion is on counts the entries left before index 512; `i` is the index, `addr` and `res`
as in the code. -/
def ripasLoop (t : Nat → Entry) (msz start e : Nat) : Nat → Nat → Nat → Ripas → Nat × Ripas
  | 0, _, addr, res => (addr, res)
  | n + 1, i, addr, res =>
    match (t i).ripas? with
    | none => (addr, res)
    | some tmp =>
      if addr = start then
        if e ≤ addr + msz then (addr + msz, tmp) else ripasLoop t msz start e n (i + 1) (addr + msz) tmp
      else if tmp ≠ res then (addr, res)
      else if e ≤ addr + msz then (addr + msz, res)
      else ripasLoop t msz start e n (i + 1) (addr + msz) res

/-- `realm_ipa_get_ripas`: realm_ipa_helper.c:110-172.  The inner option is `WALK_FAIL`; the
outer one a failed assertion. -/
def ipaGetRipas (s : State) (r : Rd) (start e : Nat) : Option (Option (Nat × Ripas)) :=
  if start % 4096 = 0 ∧ e % 4096 = 0 ∧ r.inPar start = true ∧ 1 ≤ e ∧ r.inPar (e - 1) = true then
    match walk s r start 0 with
    | none => none
    | some w =>
      match getTab s w.g with
      | none => none
      | some t =>
        let st := start / sz w.d * sz w.d
        let p := ripasLoop t (sz w.d) st e (512 - w.i) w.i st .empty
        if p.1 ≠ st then some (some p) else some none
  else none

/-- The RIPAS of a page. -/
def VE.ripas : VE → Option Ripas
  | .unassigned r => some r
  | .assigned r _ => some r
  | _ => none

theorem pageView_ripas (d a : Nat) {e : Entry} (h : ∀ c, e ≠ .table c) :
    ∃ v, pageView d a e = some v ∧ v.ripas = e.ripas? := by
  cases e with
  | table c => exact absurd rfl (h c)
  | _ => exact ⟨_, rfl, rfl⟩

theorem ripasLoop_spec {t : Nat → Entry} {msz start e : Nat} (hm : 0 < msz) : ∀ n i addr res, start ≤ addr → addr < e →
    ∃ k v, ripasLoop t msz start e n i addr res = (addr + k * msz, v) ∧ k ≤ n ∧
      (∀ j < k, (t (i + j)).ripas? = some v) ∧ (addr ≠ start → v = res) ∧
      (k = n ∨ e ≤ addr + k * msz ∨ (t (i + k)).ripas? ≠ some v) ∧ (∀ j < k, addr + j * msz < e) := by
  intro n
  induction n with
  | zero =>
    intro i addr res h1 h2
    exact ⟨0, res, by simp [ripasLoop], Nat.le_refl _, by omega, fun _ => rfl, Or.inl rfl, by omega⟩
  | succ n ih =>
    intro i addr res h1 h2
    unfold ripasLoop
    cases hx : (t i).ripas? with
    | none =>
      exact ⟨0, res, by simp, by omega, by omega, fun _ => rfl, Or.inr (Or.inr (by simp [hx])), by omega⟩
    | some tmp =>
      dsimp only
      -- a step that takes the entry
      have take : ∀ v, tmp = v → (addr ≠ start → v = res) →
          ∃ k v', (if e ≤ addr + msz then (addr + msz, v) else ripasLoop t msz start e n (i + 1) (addr + msz) v) =
            (addr + k * msz, v') ∧ k ≤ n + 1 ∧
            (∀ j < k, (t (i + j)).ripas? = some v') ∧ (addr ≠ start → v' = res) ∧
            (k = n + 1 ∨ e ≤ addr + k * msz ∨ (t (i + k)).ripas? ≠ some v') ∧ (∀ j < k, addr + j * msz < e) := by
        intro v hv hres
        by_cases h3 : e ≤ addr + msz
        · rw [if_pos h3]
          refine ⟨1, v, by simp, by omega, ?_, hres, Or.inr (Or.inl (by omega)), ?_⟩
          · intro j hj
            obtain rfl : j = 0 := by omega
            rw [Nat.add_zero, hx, hv]
          · intro j hj
            obtain rfl : j = 0 := by omega
            omega
        · rw [if_neg h3]
          obtain ⟨k, v', e1, e2, e3, e4, e5, e6⟩ := ih (i + 1) (addr + msz) v (by omega) (by omega)
          have hv' : v' = v := e4 (by omega)
          subst hv'
          have eadd : ∀ j, addr + msz + j * msz = addr + (j + 1) * msz := by
            intro j; rw [Nat.add_mul]; omega
          refine ⟨k + 1, v', by rw [e1, eadd], by omega, ?_, hres, ?_, ?_⟩
          · intro j hj
            cases j with
            | zero => rw [Nat.add_zero, hx, hv]
            | succ j => rw [← e3 j (by omega)]; congr 2; omega
          · rw [eadd] at e5
            rcases e5 with e5 | e5 | e5
            · exact Or.inl (by omega)
            · exact Or.inr (Or.inl e5)
            · refine Or.inr (Or.inr ?_)
              rwa [show i + (k + 1) = i + 1 + k by omega]
          · intro j hj
            cases j with
            | zero => omega
            | succ j => rw [← eadd]; exact e6 j (by omega)
      by_cases h3 : addr = start
      · rw [if_pos h3]
        exact take tmp rfl (fun h => absurd h3 h)
      · rw [if_neg h3]
        by_cases h4 : tmp ≠ res
        · rw [if_pos h4]
          refine ⟨0, res, by simp, by omega, by omega, fun _ => rfl, Or.inr (Or.inr ?_), by omega⟩
          rw [Nat.add_zero, hx]
          simpa using h4
        · rw [if_neg h4]
          exact take res (by simpa using h4) (fun _ => rfl)

section
variable {P : Plat} {s : State} {ti : Nat → TabInfo} {di : Nat → Nat × Nat} {rl : Nat → List Nat}

theorem par_le_ipa (r : Rd) : r.parSize ≤ r.ipaSize := Nat.div_le_self _ _

/-- The walk to page level ends at the leaf. -/
theorem walk_to_leaf (h : InvG P s ti di rl) {rdA a : Nat} (hrd : s.st rdA = .rd) (ha : a < (rdOf s rdA).ipaSize) :
    ∃ g d, walk s (rdOf s rdA) a 0 = some ⟨g, d, idx d a⟩ ∧ At s ti rdA a d g ∧
      (∀ c, tabOf s g (idx d a) ≠ .table c) ∧ leaf s rdA a = some (tabOf s g (idx d a), d) ∧
      getTab s g = some (tabOf s g) := by
  obtain ⟨g, d, hw, k, _, hstop⟩ := walk_at h hrd ha (Nat.zero_le _)
  have hn : ∀ c, tabOf s g (idx d a) ≠ .table c := by
    by_cases hd : d = 0
    · intro c hc
      have hent := k.ent h
      rw [hc] at hent
      have := hent.2.1
      omega
    · exact hstop hd
  exact ⟨g, d, hw, k, hn, leaf_at h k hn, getTab_eq h k.st⟩

/-- What `realm_ipa_to_pa` answers, in terms of the realm's address space. -/
theorem ipaToPa_spec (h : InvG P s ti di rl) {rdA a : Nat} (hrd : s.st rdA = .rd) (hal : a % 4096 = 0)
    (hp : a < (rdOf s rdA).parSize) :
    ∃ e d v, leaf s rdA a = some (e, d) ∧ view s rdA a = some v ∧
      ((∃ pa g, v = .assigned .ram pa ∧ ipaToPa s (rdOf s rdA) a = some (.success pa g d) ∧ s.st g = .rtt) ∨
       ((∀ pa, v ≠ .assigned .ram pa) ∧ ∃ rp, v.ripas = some rp ∧ ipaToPa s (rdOf s rdA) a = some (.fail rp d))) := by
  have hin : (rdOf s rdA).inPar a = true := by unfold Rd.inPar; simpa using hp
  have ha : a < (rdOf s rdA).ipaSize := lt_of_lt_of_le hp (par_le_ipa _)
  obtain ⟨g, d, hw, k, hn, hl, hg⟩ := walk_to_leaf h hrd ha
  have hv := view_of_leaf hl
  have hh := view_half h hrd ha
  have e0 : ipaToPa s (rdOf s rdA) a =
      match tabOf s g (idx d a) with
        | .assigned .ram pa => some (.success (pa + a % sz d) g d)
        | .assigned .destroyed _ => some (.fail .destroyed d)
        | .unassigned .destroyed => some (.fail .destroyed d)
        | .unassigned .ram => some (.fail .ram d)
        | _ => some (.fail .empty d) := by
    unfold ipaToPa
    rw [if_neg (by rw [hin]; simpa using hal), hw]
    dsimp only
    rw [hg]
  have hoff : a % sz d / 4096 * 4096 = a % sz d := by
    have : a % sz d % 4096 = 0 := by
      rw [Nat.mod_mod_of_dvd _ (by rw [← sz_zero]; exact sz_dvd (Nat.zero_le d))]; exact hal
    omega
  refine ⟨_, _, (pageView d a (tabOf s g (idx d a))).getD .unassignedNs, hl, ?_⟩
  cases he : tabOf s g (idx d a) with
  | table c => exact absurd he (hn c)
  | unassigned rp =>
    rw [he] at hv e0
    refine ⟨hv, Or.inr ⟨by intro pa; simp [pageView], rp, rfl, ?_⟩⟩
    rw [e0]; cases rp <;> rfl
  | assigned rp pa =>
    rw [he] at hv e0
    refine ⟨hv, ?_⟩
    cases rp with
    | ram =>
      refine Or.inl ⟨_, g, rfl, ?_, k.st⟩
      rw [e0, hoff]
    | empty => exact Or.inr ⟨by intro pa; simp [pageView], _, rfl, e0⟩
    | destroyed => exact Or.inr ⟨by intro pa; simp [pageView], _, rfl, e0⟩
  | unassignedNs =>
    rw [he] at hv
    rcases hh with ⟨_, ⟨rp, h3⟩ | ⟨rp, x, h3⟩⟩ | ⟨h3, _⟩
    · rw [hv] at h3; simp [pageView] at h3
    · rw [hv] at h3; simp [pageView] at h3
    · omega
  | assignedNs at_ pa =>
    rw [he] at hv
    rcases hh with ⟨_, ⟨rp, h3⟩ | ⟨rp, x, h3⟩⟩ | ⟨h3, _⟩
    · rw [hv] at h3; simp [pageView] at h3
    · rw [hv] at h3; simp [pageView] at h3
    · omega

/-- What `realm_ipa_get_ripas` answers. -/
theorem ipaGetRipas_spec (h : InvG P s ti di rl) {rdA a e : Nat} (hrd : s.st rdA = .rd) (hal : a % 4096 = 0)
    (hel : e % 4096 = 0) (hae : a < e) (he : e ≤ (rdOf s rdA).parSize) :
    ∃ top v ent d, ipaGetRipas s (rdOf s rdA) a e = some (some (top, v)) ∧ leaf s rdA a = some (ent, d) ∧
      a < top ∧ top % 4096 = 0 ∧
      (∀ x, a ≤ x → x < top → x < e → ∃ w, view s rdA x = some w ∧ w.ripas = some v) ∧
      (e ≤ top ∨ top % sz (d + 1) = 0 ∨ ∃ ent' d', leaf s rdA top = some (ent', d') ∧ (d' < d ∨ ent'.ripas? ≠ some v)) ∧
      (top < e + sz d) := by
  have hin : (rdOf s rdA).inPar a = true := by unfold Rd.inPar; simp; omega
  have hin' : (rdOf s rdA).inPar (e - 1) = true := by unfold Rd.inPar; simp; omega
  have hpi := par_le_ipa (rdOf s rdA)
  have ha : a < (rdOf s rdA).ipaSize := by omega
  obtain ⟨g, d, hw, k, hn, hl, hg⟩ := walk_to_leaf h hrd ha
  have hp := sz_pos d
  have hd4 : 4096 ∣ sz d := by rw [← sz_zero]; exact sz_dvd (Nat.zero_le _)
  have hle : a / sz d * sz d ≤ a := Nat.div_mul_le_self _ _
  have hlt : a < a / sz d * sz d + sz d := by
    have := Nat.mod_lt a hp
    have h2 := Nat.div_add_mod a (sz d)
    rw [Nat.mul_comm] at h2; omega
  have hi := idx_lt d a
  obtain ⟨n, v, l1, l2, l3, _, l5, l6⟩ := ripasLoop_spec (t := tabOf s g) (start := a / sz d * sz d) (e := e) hp
    (512 - idx d a) (idx d a) (a / sz d * sz d) .empty (Nat.le_refl _) (by omega)
  -- the first entry always counts
  have hfirst : ∃ rp, (tabOf s g (idx d a)).ripas? = some rp := by
    have hv := view_of_leaf hl
    obtain ⟨v0, hv0, hr0⟩ := pageView_ripas d a hn
    rw [hv0] at hv
    rw [← hr0]
    rcases view_half h hrd ha with ⟨_, ⟨rp, h3⟩ | ⟨rp, x, h3⟩⟩ | ⟨h3, _⟩
    · rw [hv] at h3; cases h3; exact ⟨_, rfl⟩
    · rw [hv] at h3; cases h3; exact ⟨_, rfl⟩
    · omega
  obtain ⟨rp0, hrp0⟩ := hfirst
  have hn1 : 1 ≤ n := by
    rcases Nat.eq_zero_or_pos n with rfl | hpos
    · exfalso
      have e1 : ripasLoop (tabOf s g) (sz d) (a / sz d * sz d) e (512 - idx d a) (idx d a) (a / sz d * sz d) .empty =
          (a / sz d * sz d + 0 * sz d, v) := l1
      rw [show 512 - idx d a = (511 - idx d a) + 1 by omega] at e1
      unfold ripasLoop at e1
      rw [hrp0] at e1
      dsimp only at e1
      rw [if_pos rfl] at e1
      by_cases h3 : e ≤ a / sz d * sz d + sz d
      · rw [if_pos h3] at e1
        have := (Prod.mk.inj e1).1
        omega
      · rw [if_neg h3] at e1
        obtain ⟨n', v', m1, _⟩ := ripasLoop_spec (t := tabOf s g) (start := a / sz d * sz d) (e := e) hp
          (511 - idx d a) (idx d a + 1) (a / sz d * sz d + sz d) rp0 (by omega) (by omega)
        rw [m1] at e1
        have := (Prod.mk.inj e1).1
        omega
    · exact hpos
  have hnsz : sz d ≤ n * sz d := Nat.le_mul_of_pos_left _ hn1
  have e0 : ipaGetRipas s (rdOf s rdA) a e = some (some (a / sz d * sz d + n * sz d, v)) := by
    unfold ipaGetRipas
    rw [if_pos ⟨hal, hel, hin, by omega, hin'⟩, hw]
    dsimp only
    rw [hg]
    dsimp only
    rw [l1, if_pos (by dsimp only; omega)]
  have hadd := al_add d a (k.lt52 h)
  have hmid : a / sz d * sz d + n * sz d = Rmm.al d a + (idx d a + n) * sz d := by
    rw [← hadd, Nat.add_assoc, ← Nat.add_mul]
  have h52 := (h.rds rdA k.rd).geo.ipa_lt
  -- the entry that a later address reaches
  have reach : ∀ x, a / sz d * sz d ≤ x → x < (rdOf s rdA).ipaSize → (x - Rmm.al d a) / sz d < 512 →
      At s ti rdA x d g ∧ idx d x = (x - Rmm.al d a) / sz d := by
    intro x h1 h2 h3
    have hax : Rmm.al d a ≤ x := by omega
    have hin := (at_entry h k (x := x) (by omega) ((x - Rmm.al d a) / sz d) h3).mp (by
      have e1 := Nat.div_add_mod (x - Rmm.al d a) (sz d)
      rw [Nat.mul_comm] at e1
      have e2 := Nat.mod_lt (x - Rmm.al d a) hp
      omega)
    exact ⟨⟨k.rd, h2, k.st, by rw [k.ti, hin.1]⟩, hin.2⟩
  refine ⟨_, v, _, d, e0, hl, by omega, ?_, ?_, ?_, ?_⟩
  · rw [← Nat.add_mul]
    exact Nat.mod_eq_zero_of_dvd (Dvd.dvd.mul_left hd4 _)
  · intro x h1 h2 h3
    have hm : (x - Rmm.al d a) / sz d < idx d a + n := by
      rw [Nat.div_lt_iff_lt_mul hp]; omega
    have hge2 : idx d a ≤ (x - Rmm.al d a) / sz d := by
      rw [Nat.le_div_iff_mul_le hp]; omega
    obtain ⟨kx, ix⟩ := reach x (by omega) (by omega) (by omega)
    have hr := l3 ((x - Rmm.al d a) / sz d - idx d a) (by omega)
    rw [show idx d a + ((x - Rmm.al d a) / sz d - idx d a) = (x - Rmm.al d a) / sz d by omega, ← ix] at hr
    have hnx : ∀ c, tabOf s g (idx d x) ≠ .table c := by
      intro c hc; rw [hc] at hr; cases hr
    obtain ⟨w, hw1, hw2⟩ := pageView_ripas d x hnx
    exact ⟨w, by rw [view_of_leaf (leaf_at h kx hnx)]; exact hw1, by rw [hw2]; exact hr⟩
  · rcases l5 with l5 | l5 | l5
    · right; left
      rw [hmid, l5, show idx d a + (512 - idx d a) = 512 by omega]
      unfold Rmm.al
      rw [← sz_succ, ← Nat.succ_mul]
      exact Nat.mul_mod_left _ _
    · exact Or.inl l5
    · by_cases hte : e ≤ a / sz d * sz d + n * sz d
      · exact Or.inl hte
      by_cases h512 : idx d a + n < 512
      · right; right
        have ix0 : (a / sz d * sz d + n * sz d - Rmm.al d a) / sz d = idx d a + n := by
          rw [hmid, Nat.add_sub_cancel_left, Nat.mul_div_cancel _ hp]
        obtain ⟨kx, ix⟩ := reach (a / sz d * sz d + n * sz d) (by omega) (by omega) (by rw [ix0]; exact h512)
        rw [ix0] at ix
        by_cases hc : ∃ c, tabOf s g (idx d (a / sz d * sz d + n * sz d)) = .table c
        · obtain ⟨c, hc⟩ := hc
          obtain ⟨_, _, e', d', h2, _, _, h4⟩ := kx.below h hc
          exact ⟨e', d', h4, Or.inl h2⟩
        · exact ⟨_, _, leaf_at h kx (fun c hx => hc ⟨c, hx⟩), Or.inr (by rw [ix]; exact l5)⟩
      · right; left
        rw [hmid, show idx d a + n = 512 by omega]
        unfold Rmm.al
        rw [← sz_succ, ← Nat.succ_mul]
        exact Nat.mul_mod_left _ _
  · have := l6 (n - 1) (by omega)
    have e1 : n * sz d = (n - 1) * sz d + sz d := by
      conv_lhs => rw [show n = (n - 1) + 1 by omega]
      rw [Nat.add_mul, Nat.one_mul]
    omega

end

end Verif.Rmm
