import Verif.Rmm.ViewStep
import Verif.Rmm.PropRead
import Verif.Rmm.PropGranule
import Verif.Rmm.PropLife

/-!
# TLB maintenance (C39)

The TLB of the machine is modelled as a set of cached stage 2 translations, tagged with
a VMID, that can be filled from the current tables at any time and never forgets
anything by itself.  A TLB invalidation by IPA removes every cached translation of the
VMID that covers an address of its range (Arm ARM, "Invalidation of TLB entries from
stage 2 translations"); RMM relies on this when it invalidates a block through one
address of the block (s2tt.c:154-163).
-/

namespace Verif.Rmm

open Demo

/-- A cached translation of the `size` bytes of IPA space from `base` on to the physical
addresses from `pa` on; `ns` is `none` for a protected (Realm PAS) translation, otherwise
the host's attributes of an unprotected one. -/
structure Cached where
  vmid : Nat
  base : Nat
  size : Nat
  pa : Nat
  ns : Option (BitVec 64)
  deriving DecidableEq

/-- What a TLB hit tells about the page of `x`. -/
def Cached.page (c : Cached) (x : Nat) : VE :=
  if c.ns.isSome then .assignedNs (c.ns.getD 0) (c.pa + (x - c.base) / 4096 * 4096)
  else .assigned .ram (c.pa + (x - c.base) / 4096 * 4096)

/-- `x` is translated by the cached entry. -/
def Cached.covers (c : Cached) (x : Nat) : Prop := c.base ≤ x ∧ x < c.base + c.size

/-- The TLB invalidation removes the cached translation. -/
def Tlbi.hits (t : Tlbi) (c : Cached) : Prop :=
  t.vmid = c.vmid ∧ t.ipa < c.base + c.size ∧ c.base < t.ipa + t.size

/-- The translation that the leaf entry `e` of realm `r`, at depth `d`, gives for its whole
region. -/
def fillOf (r : Rd) (x d : Nat) : Entry → Option Cached
  | .assigned .ram pa => some ⟨r.vmid, x / sz d * sz d, sz d, pa, none⟩
  | .assignedNs at_ pa => some ⟨r.vmid, x / sz d * sz d, sz d, pa, some at_⟩
  | _ => none

/-- The hardware may cache `c` in state `s`. -/
def Fill (s : State) (c : Cached) : Prop :=
  ∃ r x e d, s.st r = .rd ∧ leaf s r x = some (e, d) ∧ fillOf (rdOf s r) x d e = some c

/-- The cached translation agrees with the tables of realm `r`, page by page, and does not
split an entry of these tables. -/
structure TlbOk (s : State) (c : Cached) (r : Nat) : Prop where
  rd : s.st r = .rd
  vmid : (rdOf s r).vmid = c.vmid
  pos : 0 < c.size
  ent : ∀ x, c.covers x → ∃ e d, leaf s r x = some (e, d) ∧ c.base ≤ x / sz d * sz d ∧
    x / sz d * sz d + sz d ≤ c.base + c.size ∧ pageView d x e = some (c.page x)

section
variable {P : Plat} {s s' : State} {ret : Ret} {ti : Nat → TabInfo} {di : Nat → Nat × Nat} {rl : Nat → List Nat}

theorem lt_region (a d : Nat) : a < a / sz d * sz d + sz d := by
  have h1 := Nat.div_add_mod a (sz d)
  have h2 := Nat.mod_lt a (sz_pos d)
  rw [Nat.mul_comm] at h1
  omega

theorem div_eq_of_region {d a x : Nat} (h1 : a / sz d * sz d ≤ x) (h2 : x < a / sz d * sz d + sz d) :
    x / sz d = a / sz d := by
  apply Nat.div_eq_of_lt_le
  · exact h1
  · rw [Nat.add_mul, Nat.one_mul]; exact h2

theorem Fill.ok (h : InvG P s ti di rl) {c : Cached} (hf : Fill s c) : ∃ r, TlbOk s c r := by
  obtain ⟨r, y, e, d, hr, hl, hc⟩ := hf
  have hy : y < (rdOf s r).ipaSize := by
    by_contra hn
    rw [leaf_none h hr (by omega)] at hl; cases hl
  obtain ⟨d', g, k, hn, hl'⟩ := leaf_ex h hr hy
  rw [hl] at hl'
  injection hl' with hl'
  injection hl' with e1 e2
  subst e1 e2
  have key : ∀ x, y / sz d * sz d ≤ x → x < y / sz d * sz d + sz d →
      leaf s r x = some (tabOf s g (idx d y), d) ∧ x / sz d = y / sz d := by
    intro x h1 h2
    obtain ⟨k1, k2⟩ := k.region' h h1 h2
    have := leaf_at h k1 (by rw [k2]; exact hn)
    rw [k2] at this
    exact ⟨this, div_eq_of_region h1 h2⟩
  have hmod : ∀ x, y / sz d * sz d ≤ x → x < y / sz d * sz d + sz d → x % sz d = x - y / sz d * sz d :=
    fun x h1 h2 => mod_of_region (Nat.mul_mod_left _ _) h1 h2
  refine ⟨r, ?_⟩
  cases he : tabOf s g (idx d y) with
  | assigned rp pa =>
    rw [he] at hc key
    cases rp <;> simp only [fillOf, reduceCtorEq, Option.some.injEq] at hc
    subst hc
    refine ⟨hr, rfl, sz_pos d, fun x ⟨h1, h2⟩ => ?_⟩
    obtain ⟨q1, q2⟩ := key x h1 h2
    refine ⟨_, _, q1, by rw [q2], by rw [q2], ?_⟩
    simp only [pageView, Cached.page]
    rw [hmod x h1 h2]; rfl
  | assignedNs at_ pa =>
    rw [he] at hc key
    simp only [fillOf, Option.some.injEq] at hc
    subst hc
    refine ⟨hr, rfl, sz_pos d, fun x ⟨h1, h2⟩ => ?_⟩
    obtain ⟨q1, q2⟩ := key x h1 h2
    refine ⟨_, _, q1, by rw [q2], by rw [q2], ?_⟩
    simp only [pageView, Cached.page]
    rw [hmod x h1 h2]; rfl
  | _ => rw [he] at hc; simp [fillOf] at hc

theorem TlbOk.keep {c : Cached} {r : Nat} (k : TlbOk s c r) (h1 : s'.st r = .rd)
    (h2 : (rdOf s' r).vmid = (rdOf s r).vmid) (h3 : ∀ x, c.covers x → leaf s' r x = leaf s r x) : TlbOk s' c r :=
  ⟨h1, h2.trans k.vmid, k.pos, fun x hx => by rw [h3 x hx]; exact k.ent x hx⟩

/-- A page covered by a cached translation is mapped for the realm. -/
theorem TlbOk.valid {c : Cached} {r x : Nat} (k : TlbOk s c r) (hx : c.covers x) {e : Entry} {d : Nat}
    (hl : leaf s r x = some (e, d)) : e.valid = true ∧ c.base ≤ x / sz d * sz d ∧
      x / sz d * sz d + sz d ≤ c.base + c.size ∧ pageView d x e = some (c.page x) := by
  obtain ⟨e', d', h1, h2, h3, h4⟩ := k.ent x hx
  rw [hl] at h1
  injection h1 with h1
  injection h1 with h5 h6
  subst h5 h6
  refine ⟨?_, h2, h3, h4⟩
  unfold Cached.page at h4
  cases e with
  | assigned rp pa => 
    simp only [pageView] at h4
    split at h4
    · simp at h4
    · simp only [Option.some.injEq, VE.assigned.injEq] at h4
      rw [h4.1]; rfl
  | assignedNs at_ pa => rfl
  | _ => simp only [pageView] at h4; split at h4 <;> simp at h4

end

/-- The commands whose TLB maintenance is not sufficient: folding or destroying a table
above level 3 below which something is mapped (only the first 2MB of the range of the
table are invalidated, rtt.c:455-461, 575-585), and destroying a realm whose starting
level tables still map host memory (nothing is invalidated, realm.c). -/
def Gap (s : State) : Op → Prop
  | .rttFold rd a lvl => lvl ≤ 2 ∧ ∃ x pa, a ≤ x ∧ x < a + tableSize lvl ∧
      (view s rd x = some (.assigned .ram pa) ∨ ∃ at_, view s rd x = some (.assignedNs at_ pa))
  | .rttDestroy rd a lvl => lvl ≤ 2 ∧ ∃ x at_ pa, a ≤ x ∧ x < a + tableSize lvl ∧
      view s rd x = some (.assignedNs at_ pa)
  | .realmDestroy rd => ∃ x at_ pa, view s rd x = some (.assignedNs at_ pa)
  | _ => False

section
variable {P : Plat} {s s' : State} {ret : Ret} {ti : Nat → TabInfo} {di : Nat → Nat × Nat} {rl : Nat → List Nat}

theorem tlbiPages_hits {c : Cached} {v a x : Nat} (hv : c.vmid = v) (hx : c.covers x) (h1 : a ≤ x)
    (h2 : x < a + 2097152) : ∃ t ∈ tlbiPages v a, t.hits c := by
  refine ⟨⟨v, a + (x - a) / 4096 * 4096, 4096⟩, ?_, ?_⟩
  · simp only [tlbiPages, List.mem_map, List.mem_range]
    exact ⟨(x - a) / 4096, by omega, rfl⟩
  · obtain ⟨h3, h4⟩ := hx
    refine ⟨hv.symm, ?_, ?_⟩ <;> dsimp only <;> omega

/-- A block or page is removed from the TLB by invalidating its first page. -/
theorem TlbOk.hit_first {c : Cached} {r x b : Nat} (k : TlbOk s c r) (hx : c.covers x) {e : Entry} {d : Nat}
    (hl : leaf s r x = some (e, d)) (hb : x / sz d * sz d = b) :
    Tlbi.hits ⟨(rdOf s r).vmid, b, 4096⟩ c := by
  obtain ⟨_, h2, h3, _⟩ := k.valid hx hl
  have := sz_pos d
  refine ⟨k.vmid, ?_, ?_⟩ <;> dsimp only <;> omega

theorem region_base {d a x : Nat} (hal : a % sz d = 0) (h1 : a ≤ x) (h2 : x < a + sz d) : x / sz d * sz d = a := by
  have e := div_mul_of_mod hal
  rw [div_eq_of_region (a := a) (by rw [e]; exact h1) (by rw [e]; exact h2), e]

/-- The addresses of the entry `j` further on. -/
theorem At.nth (h : InvG P s ti di rl) {rdA a d g x j : Nat} (k : At s ti rdA a d g) (hal : a % sz d = 0)
    (hj : idx d a + j < 512) (hx : x < (rdOf s rdA).ipaSize) (h1 : a + j * sz d ≤ x)
    (h2 : x < a + j * sz d + sz d) : At s ti rdA x d g ∧ idx d x = idx d a + j := by
  have h52 := (h.rds rdA k.rd).geo.ipa_lt
  have e := al_add d a (k.lt52 h)
  rw [div_mul_of_mod hal] at e
  have := (at_entry h k (x := x) (by omega) (idx d a + j) hj).mp (by
    rw [Nat.add_mul]; constructor <;> omega)
  exact ⟨⟨k.rd, hx, k.st, by rw [k.ti, this.1]⟩, this.2⟩

theorem region_up (d x : Nat) : x / sz (d + 1) * sz (d + 1) ≤ x / sz d * sz d ∧
    x / sz d * sz d + sz d ≤ x / sz (d + 1) * sz (d + 1) + sz (d + 1) := by
  have e : sz (d + 1) = sz d * 512 := by rw [sz_succ, Nat.mul_comm]
  have e2 : x / sz (d + 1) = x / sz d / 512 := by rw [e, Nat.div_div_eq_div_mul]
  have h1 := Nat.div_add_mod (x / sz d) 512
  have h2 := Nat.mod_lt (x / sz d) (show 0 < 512 by omega)
  rw [e2, e]
  generalize x / sz d = q at *
  have a1 : q / 512 * (sz d * 512) = (q / 512 * 512) * sz d := by ring
  have a2 : q / 512 * (sz d * 512) + sz d * 512 = (q / 512 * 512 + 512) * sz d := by ring
  have a3 : q * sz d + sz d = (q + 1) * sz d := by ring
  rw [a2, a1, a3]
  exact ⟨Nat.mul_le_mul_right _ (by omega), Nat.mul_le_mul_right _ (by omega)⟩

theorem setRipas_valid {e : Entry} {v : Ripas} {chg : Bool} (he : e.valid = true)
    (hs : (updateRipas e v chg).isSome = true) :
    e.setRipas v chg = e ∨ ∃ e', updateRipas e v chg = some (e', true) := by
  cases e with
  | assigned rp pa => cases rp <;> cases v <;> simp_all [Entry.setRipas, updateRipas, Entry.valid]
  | _ => simp_all [Entry.setRipas, updateRipas, Entry.valid]

theorem split_valid {e : Entry} {d i : Nat} (h : (splitEntry e d i).valid = true) : e.valid = true := by
  cases e with
  | assigned rp pa => cases rp <;> simp_all [splitEntry, Entry.valid]
  | _ => simp_all [splitEntry, Entry.valid]

theorem Cached.page_cases (c : Cached) (x : Nat) : (∃ pa, c.page x = .assigned .ram pa) ∨
    ∃ at_ pa, c.page x = .assignedNs at_ pa := by
  unfold Cached.page
  split
  · exact Or.inr ⟨_, _, rfl⟩
  · exact Or.inl ⟨_, rfl⟩

theorem TlbOk.view {c : Cached} {r x : Nat} (k : TlbOk s c r) (hx : c.covers x) :
    Rmm.view s r x = some (c.page x) := by
  obtain ⟨e, d, h1, _, _, h4⟩ := k.ent x hx
  rw [view_of_leaf h1]; exact h4

/-- C39 for one command, except the commands of `Gap`: a cached translation that agrees with the
tables is invalidated or still agrees afterwards.  Missing: it is false for the commands of `Gap`. -/
theorem C39_step_partial (hP : PlatOk P) (hr : Reach P s) {op : Op} (es : step P s op = some (s', ret))
    (hgap : ¬ Gap s op) {c : Cached} {r : Nat} (k : TlbOk s c r) :
    (∃ t ∈ ret.tlbi, t.hits c) ∨ TlbOk s' c r := by
  obtain ⟨ti, di, rl, h⟩ := hr.inv hP
  rcases step_eff hP h es with ⟨rfl, _⟩ | e
  · exact Or.inr k
  by_cases hit : ∃ t ∈ ret.tlbi, t.hits c
  · exact Or.inl hit
  right
  by_cases hrdd : op = .realmDestroy r
  · subst hrdd
    exfalso
    have kd : RealmDestroyOk s r s' ret := e
    have hb : c.covers c.base := ⟨Nat.le_refl _, by have := k.pos; omega⟩
    have hvw := k.view hb
    rcases c.page_cases c.base with ⟨pa, hp⟩ | ⟨at_, pa, hp⟩
    · rw [hp] at hvw
      obtain ⟨_, hlt⟩ := view_some h hvw
      obtain ⟨d, g, ka, hn, hl⟩ := leaf_ex h kd.rd hlt
      have hta : (ti g).rd = r := by rw [ka.ti]
      obtain ⟨j, hj, hg⟩ := only_roots h kd.rd kd.roots g ka.st hta
      have h0 := kd.roots j hj
      rw [← hg, (h.tab g ka.st).rc] at h0
      have := cnt_eq_zero _ _ h0 _ (idx_lt d c.base)
      rw [view_of_leaf hl] at hvw
      cases he : tabOf s g (idx d c.base) <;> rw [he] at hvw this <;> simp [pageView, Entry.counted] at hvw this
    · exact hgap ⟨_, _, _, hvw.trans (congrArg some hp)⟩
  have hr' := e.rd_stays h k.rd hrdd
  have hv := (e.geo h k.rd hr').vmid
  by_cases hop : op.soft = true
  · exact k.keep hr' hv (fun x _ => e.leaf_same hP h es (e.rd_iff_soft h hop r)
      (fun h0 => e.geo h h0 ((e.rd_iff_soft h hop r).mpr h0)) (fun g hg => e.rtt_kept h hop hg) x)
  -- an entry that changes is not covered
  have chg : ∀ {q : Prop} [Decidable q] {x : Nat} {u : Option (Entry × Nat)}, c.covers x →
      leaf s' r x = (if q then u else leaf s r x) → (q → False) → leaf s' r x = leaf s r x := by
    intro q _ x u _ h1 h2
    rw [h1, if_neg h2]
  cases op with
  | rttCreate rd rtt b lvl =>
    obtain ⟨d, g, en, _, kc⟩ := e
    refine ⟨hr', hv.trans k.vmid, k.pos, fun x hx => ?_⟩
    by_cases hin : r = rd ∧ b ≤ x ∧ x < b + sz (d + 1)
    · obtain ⟨rfl, h1, h2⟩ := hin
      obtain ⟨l1, l2⟩ := kc.leaf_in h x h1 h2
      obtain ⟨_, v2, v3, v4⟩ := k.valid hx l1
      have hlt : x < 2 ^ 52 := by
        obtain ⟨_, hlt⟩ := view_some h (k.view hx)
        exact lt_of_lt_of_le hlt (h.rds r k.rd).geo.ipa_lt
      obtain ⟨u1, u2⟩ := region_up d x
      rw [← pageView_split d x en hlt] at v4
      exact ⟨_, _, l2, by omega, by omega, v4⟩
    · rw [kc.leaf_out h r x hin]; exact k.ent x hx
  | rttFold rd b lvl =>
    obtain ⟨d, g, ch, en, rfl, kc⟩ := e
    refine k.keep hr' hv (fun x hx => chg hx (kc.leaf_eq h r x) ?_)
    rintro ⟨rfl, h1, h2⟩
    have hse := kc.same.1 (idx d x) (idx_lt _ _)
    have hnt : ∀ p, tabOf s ch (idx d x) ≠ .table p := by
      intro p hp
      rw [hse] at hp
      exact kc.same.2.1 p (by cases en <;> simp [splitEntry] at hp ⊢; exact hp)
    have hl := (leaf_child h kc.ch x h1 h2 hnt).2
    have hval := (k.valid hx hl).1
    rw [hse] at hval
    have hval2 := split_valid hval
    rcases Nat.eq_zero_or_pos d with rfl | hd
    · have hsz : sz (0 + 1) = 2097152 := by decide
      obtain ⟨t, ht, hh⟩ := tlbiPages_hits k.vmid.symm hx h1 (by omega)
      exact hit ⟨t, by rw [kc.ret]; dsimp only; rw [if_pos hval2]; exact ht, hh⟩
    · refine hgap ⟨by omega, x, ?_⟩
      rw [tableSize_eq rfl, k.view hx]
      rcases c.page_cases x with ⟨pa, hp⟩ | ⟨at_, pa, hp⟩
      · exact ⟨pa, h1, h2, Or.inl (by rw [hp])⟩
      · exact ⟨pa, h1, h2, Or.inr ⟨at_, by rw [hp]⟩⟩
  | rttDestroy rd b lvl =>
    obtain ⟨d, g, ch, rfl, kc⟩ := e
    refine k.keep hr' hv (fun x hx => chg hx (kc.leaf_eq h r x) ?_)
    rintro ⟨rfl, h1, h2⟩
    obtain ⟨hl, hnc⟩ := kc.leaf_was h x h1 h2
    have hval := k.valid hx hl
    have hvw := k.view hx
    obtain ⟨at_, pa, hp⟩ : ∃ at_ pa, c.page x = .assignedNs at_ pa := by
      rcases c.page_cases x with ⟨pa, hp⟩ | hp
      · exfalso
        rw [hp] at hval
        cases he : tabOf s ch (idx d x) <;> rw [he] at hval hnc <;> simp [pageView, Entry.counted] at hval hnc
      · exact hp
    rw [hp] at hvw
    rcases Nat.eq_zero_or_pos d with rfl | hd
    · have hsz : sz (0 + 1) = 2097152 := by decide
      have hpar : ¬ b < (rdOf s r).parSize := by
        intro hpar
        have hxp : x < (rdOf s r).parSize :=
          region_below (d := 0 + 1) (dvd_trans (sz_dvd (kc.ch.at_.depth h)) (h.rds r k.rd).geo.par_dvd) kc.ch.al hpar h2
        rcases view_half h k.rd (view_some h hvw).2 with ⟨_, ⟨rp, hh⟩ | ⟨rp, y, hh⟩⟩ | ⟨hh, _⟩
        · rw [hvw] at hh; cases hh
        · rw [hvw] at hh; cases hh
        · omega
      obtain ⟨t, ht, hh⟩ := tlbiPages_hits k.vmid.symm hx h1 (by omega)
      exact hit ⟨t, by rw [kc.tlbi, if_neg hpar]; exact ht, hh⟩
    · exact hgap ⟨by omega, x, at_, pa, h1, by rw [tableSize_eq rfl]; exact h2, hvw⟩
  | rttMapUnprotected rd b lvl desc =>
    obtain ⟨d, g, rfl, kc⟩ := e
    refine k.keep hr' hv (fun x hx => chg hx (kc.leaf h r x) ?_)
    rintro ⟨rfl, h1, h2⟩
    obtain ⟨k1, k2⟩ := kc.at_.region h kc.al h1 h2
    have hl := leaf_at h k1 (by rw [k2, kc.ent]; simp)
    rw [k2, kc.ent] at hl
    have := (k.valid hx hl).1
    cases this
  | rttUnmapUnprotected rd b lvl =>
    obtain ⟨d, g, rfl, kc⟩ := e
    refine k.keep hr' hv (fun x hx => chg hx (kc.leaf h r x) ?_)
    rintro ⟨rfl, h1, h2⟩
    obtain ⟨at_, pa, he⟩ := kc.ent
    obtain ⟨k1, k2⟩ := kc.at_.region h kc.al h1 h2
    have hl := leaf_at h k1 (by rw [k2, he]; simp)
    exact hit ⟨_, by rw [kc.ret]; exact List.mem_singleton.mpr rfl, k.hit_first hx hl (region_base kc.al h1 h2)⟩
  | dataCreateUnknown rd data b =>
    obtain ⟨g, rp, kc, _, rfl⟩ := e
    refine k.keep hr' hv (fun x hx => chg hx (leaf_dataCreateUnknown hP h kc r x) ?_)
    rintro ⟨rfl, h1, h2⟩
    have hs0 : sz 0 = 4096 := rfl
    obtain ⟨k1, k2⟩ := kc.at_.region h kc.al h1 (by omega)
    have hl := leaf_at h k1 (by rw [k2, kc.ent]; simp)
    rw [k2, kc.ent] at hl
    have := (k.valid hx hl).1
    cases this
  | dataCreate rd data b src flags =>
    obtain ⟨g, rp, p, kc, _, _, _, _, _, _, rfl⟩ := e
    refine k.keep hr' hv (fun x hx => chg hx (leaf_dataCreate hP h kc r x) ?_)
    rintro ⟨rfl, h1, h2⟩
    have hs0 : sz 0 = 4096 := rfl
    obtain ⟨k1, k2⟩ := kc.at_.region h kc.al h1 (by omega)
    have hl := leaf_at h k1 (by rw [k2, kc.ent]; simp)
    rw [k2, kc.ent] at hl
    have := (k.valid hx hl).1
    cases this
  | dataDestroy rd b =>
    obtain ⟨g, pa, rp, kc⟩ := e
    refine k.keep hr' hv (fun x hx => chg hx (kc.leaf h r x) ?_)
    rintro ⟨rfl, h1, h2⟩
    have hs0 : sz 0 = 4096 := rfl
    obtain ⟨k1, k2⟩ := kc.at_.region h kc.al h1 (by omega)
    have hl := leaf_at h k1 (by rw [k2, kc.ent]; simp)
    rw [k2, kc.ent] at hl
    have := (k.valid hx hl).1
    have hrp : rp = .ram := by cases rp <;> simp [Entry.valid] at this ⊢
    subst hrp
    exact hit ⟨_, by rw [kc.ret]; exact List.mem_singleton.mpr rfl, k.hit_first hx hl (region_base kc.al h1 (by omega))⟩
  | rttInitRipas rd base top =>
    obtain ⟨d, g, m, kc⟩ := e
    refine k.keep hr' hv (fun x hx => chg hx (leaf_init h kc r x) ?_)
    rintro ⟨rfl, h1, h2⟩
    have hlt := (view_some h (k.view hx)).2
    have hp := sz_pos d
    have hj : (x - base) / sz d < m := by
      rw [Nat.div_lt_iff_lt_mul hp]; omega
    have h3 : base + (x - base) / sz d * sz d ≤ x := by
      have := Nat.div_mul_le_self (x - base) (sz d); omega
    have h4 : x < base + (x - base) / sz d * sz d + sz d := by
      have := lt_region (x - base) d; omega
    have hper : perTab d ≤ 512 := by unfold perTab; split <;> omega
    have hm2 := kc.m2
    have hm1 := kc.m1
    obtain ⟨k1, k2⟩ := kc.at_.nth h kc.al (j := (x - base) / sz d) (by omega) hlt h3 h4
    have hw := kc.was (idx d base + (x - base) / sz d) (Nat.le_add_right _ _) (by omega)
    rw [← k2] at hw
    have hl := leaf_at h k1 (by intro c hc; rw [hc] at hw; cases hw)
    have hval := (k.valid hx hl).1
    cases he : tabOf s g (idx d x) <;> rw [he] at hval hw <;> simp [Entry.valid, Entry.initable] at hval hw
  | rttSetRipas rd rc base top =>
    obtain ⟨d, g, m, kc⟩ := e
    refine k.keep hr' hv (fun x hx => ?_)
    rw [leaf_set h kc r x]
    split
    swap
    · rfl
    rename_i hc
    obtain ⟨rfl, h1, h2⟩ := hc
    have hlt := (view_some h (k.view hx)).2
    have hp := sz_pos d
    have hj : (x - base) / sz d < m := by
      rw [Nat.div_lt_iff_lt_mul hp]; omega
    have h3 : base + (x - base) / sz d * sz d ≤ x := by
      have := Nat.div_mul_le_self (x - base) (sz d); omega
    have h4 : x < base + (x - base) / sz d * sz d + sz d := by
      have := lt_region (x - base) d; omega
    have hm2 := kc.m2
    have hm1 := kc.m1
    obtain ⟨k1, k2⟩ := kc.at_.nth h kc.al (j := (x - base) / sz d) (by omega) hlt h3 h4
    have hw := kc.can (idx d base + (x - base) / sz d) (Nat.le_add_right _ _) (by omega)
    have hw' := hw
    rw [← k2] at hw
    have hl := leaf_at h k1 (by intro c hc; rw [hc] at hw; cases hw)
    have hval := (k.valid hx hl).1
    rcases setRipas_valid hval hw with he | ⟨e', he⟩
    · rw [hl]; simp only [Option.map_some]; rw [he]
    · exfalso
      rw [k2] at he
      refine hit ⟨_, (kc.tlbi _).mpr ⟨(x - base) / sz d, hj, ⟨e', he⟩, rfl⟩, k.hit_first hx hl ?_⟩
      have e1 : x / sz d = (base + (x - base) / sz d * sz d) / sz d := by
        have : (base + (x - base) / sz d * sz d) % sz d = 0 := by
          rw [Nat.add_mul_mod_self_right]; exact kc.al
        have e2 := div_mul_of_mod this
        exact div_eq_of_region (by rw [e2]; exact h3) (by rw [e2]; exact h4)
      rw [e1, div_mul_of_mod]
      rw [Nat.add_mul_mod_self_right]; exact kc.al
  | realmCreate rd pA q =>
    have kc : RealmCreateOk P s rd q s' ret := e
    have hne : r ≠ rd := ne_of_st k.rd kc.rd.2 (by simp)
    exact k.keep hr' hv (fun x _ => kc.leaf_other h r x hne)
  | realmDestroy rd =>
    have kc : RealmDestroyOk s rd s' ret := e
    refine k.keep hr' hv (fun x _ => ?_)
    rw [kc.leaf_eq h r x, if_neg]
    rintro rfl; exact hrdd rfl
  | _ => exact absurd rfl hop

end

/-! ## Executions with a TLB -/

instance (t : Tlbi) (c : Cached) : Decidable (t.hits c) := by unfold Tlbi.hits; infer_instance

/-- The states of the machine together with its TLB: `T c` when `c` is cached.  The TLB starts
empty, may cache any valid entry of the tables of any realm at any time, and loses what the
commands invalidate.  Only the operations allowed by `ok` are used. -/
inductive TlbReach (P : Plat) (ok : State → Op → Prop) : State → (Cached → Prop) → Prop where
  | init {s} : Init P s → TlbReach P ok s (fun _ => False)
  | fill {s T c} : TlbReach P ok s T → Fill s c → TlbReach P ok s (fun x => x = c ∨ T x)
  | step {s T op s' ret} : TlbReach P ok s T → step P s op = some (s', ret) → ok s op →
      TlbReach P ok s' (fun x => T x ∧ ¬ ∃ t ∈ ret.tlbi, t.hits x)

/-- Every cached translation is tagged with the VMID of a living realm, and translates every
page it covers as the tables of that realm do. -/
def Coherent (s : State) (T : Cached → Prop) : Prop :=
  ∀ c, T c → ∃ r, s.st r = .rd ∧ (rdOf s r).vmid = c.vmid ∧ ∀ x, c.covers x → view s r x = some (c.page x)

section
variable {P : Plat} {s s' : State} {ret : Ret}

theorem TlbReach.reach {ok : State → Op → Prop} {T : Cached → Prop} (h : TlbReach P ok s T) : Reach P s := by
  induction h with
  | init h => exact Reach.init h
  | fill _ _ ih => exact ih
  | step _ e _ ih => exact Reach.step ih e

theorem tlb_inv (hP : PlatOk P) {T : Cached → Prop} (h : TlbReach P (fun s op => ¬ Gap s op) s T) :
    ∀ c, T c → ∃ r, TlbOk s c r := by
  induction h with
  | init _ => intro c hc; cases hc
  | fill h0 hf ih =>
    intro c hc
    rcases hc with rfl | hc
    · obtain ⟨ti, di, rl, h⟩ := h0.reach.inv hP
      exact hf.ok h
    · exact ih c hc
  | step h0 e hg ih =>
    intro c hc
    obtain ⟨r, k⟩ := ih c hc.1
    rcases C39_step_partial hP h0.reach e hg k with hh | hh
    · exact absurd hh hc.2
    · exact ⟨r, hh⟩

/-- C39, except for the commands of `Gap`: whatever the hardware has cached, at any time and in
any order, agrees with the tables of the realm that owns the VMID.
Missing: it is false for the commands of `Gap`, see `C39_destroy_gap`, `C39_realm_gap` and
`C39_fold_gap`. -/
theorem C39_coherent_partial (hP : PlatOk P) {T : Cached → Prop} (h : TlbReach P (fun s op => ¬ Gap s op) s T) :
    Coherent s T := by
  intro c hc
  obtain ⟨r, k⟩ := tlb_inv hP h c hc
  exact ⟨r, k.rd, k.vmid, fun x hx => k.view hx⟩

/-- C39, same exception: a cached protected translation leads to DATA granules in the Realm
address space which no other realm and no other page of the same realm maps.  In particular
no granule is given back, or given to another realm, while the TLB leads to it. -/
theorem C39_granules_partial (hP : PlatOk P) {T : Cached → Prop} (h : TlbReach P (fun s op => ¬ Gap s op) s T)
    {c : Cached} (hc : T c) (hn : c.ns = none) {x : Nat} (hx : c.covers x) :
    s.st (c.pa + (x - c.base) / 4096 * 4096) = .data ∧ s.pas (c.pa + (x - c.base) / 4096 * 4096) = .realm ∧
    ∃ r, s.st r = .rd ∧ (rdOf s r).vmid = c.vmid ∧
      ∀ r' a' rp, view s r' a' = some (.assigned rp (c.pa + (x - c.base) / 4096 * 4096)) → r' = r := by
  obtain ⟨r, k⟩ := tlb_inv hP h c hc
  have hv := k.view hx
  rw [show c.page x = .assigned .ram (c.pa + (x - c.base) / 4096 * 4096) by
    unfold Cached.page; rw [hn]; rfl] at hv
  obtain ⟨h1, _, h3, h4⟩ := C03_assigned_is_data hP h.reach hv
  exact ⟨h3, h4, r, h1, k.vmid, fun r' a' rp hv' => (C03_unique hP h.reach hv' hv).1⟩

/-- C39: what a successful RTT_FOLD invalidates lies within the first 2MB of the table,
whatever the table covers. -/
theorem C39_fold_range (hP : PlatOk P) (hr : Reach P s) {rd a : Nat} {lvl : Int}
    (e : step P s (.rttFold rd a lvl) = some (s', ret)) (h0 : ret.status = 0) :
    ∀ t ∈ ret.tlbi, a ≤ t.ipa ∧ t.ipa + t.size ≤ a + 2097152 := by
  obtain ⟨ti, di, rl, h⟩ := hr.inv hP
  obtain ⟨d, g, ch, en, rfl, kc⟩ := step_eff' hP h e rfl h0
  rw [kc.ret]
  dsimp only
  split
  · intro t ht
    simp only [tlbiPages, List.mem_map, List.mem_range] at ht
    obtain ⟨i, hi, rfl⟩ := ht
    dsimp only
    omega
  · intro t ht
    rw [List.mem_singleton] at ht
    subst ht
    dsimp only
    omega

end

/-! ## The gaps -/

/-- Run operations none of which invalidates `c`. -/
def survive (P : Plat) (c : Cached) (s : State) : List Op → Option State
  | [] => some s
  | op :: l =>
    match step P s op with
    | some (s', ret) => if ret.tlbi.any (fun t => decide (t.hits c)) then none else survive P c s' l
    | none => none

theorem survive_reach {P : Plat} {c : Cached} : ∀ (l : List Op) {s s' : State} {T : Cached → Prop},
    TlbReach P (fun _ _ => True) s T → T c → survive P c s l = some s' →
    ∃ T', TlbReach P (fun _ _ => True) s' T' ∧ T' c := by
  intro l
  induction l with
  | nil => intro s s' T h hc e; cases e; exact ⟨T, h, hc⟩
  | cons op l ih =>
    intro s s' T h hc e
    unfold survive at e
    cases hs : step P s op with
    | none => rw [hs] at e; cases e
    | some y =>
      obtain ⟨s1, ret⟩ := y
      rw [hs] at e
      dsimp only at e
      split at e
      · cases e
      · rename_i hn
        refine ih (TlbReach.step h hs trivial) ⟨hc, ?_⟩ e
        rintro ⟨t, h1, h2⟩
        exact hn (List.any_eq_true.mpr ⟨t, h1, by simpa using h2⟩)

theorem Reach.tlb {P : Plat} {s : State} (h : Reach P s) : ∃ T, TlbReach P (fun _ _ => True) s T := by
  induction h with
  | init h => exact ⟨_, .init h⟩
  | step _ e ih => obtain ⟨T, h⟩ := ih; exact ⟨_, .step h e trivial⟩

/-- `Fill`, decidably. -/
def fills (s : State) (r x : Nat) (c : Cached) : Bool :=
  (s.st r == .rd) && ((leaf s r x).bind (fun p => fillOf (rdOf s r) x p.2 p.1) == some c)

theorem fills_fill {s : State} {r x : Nat} {c : Cached} (h : fills s r x c = true) : Fill s c := by
  simp only [fills, Bool.and_eq_true, beq_iff_eq] at h
  obtain ⟨h1, h2⟩ := h
  cases hl : leaf s r x with
  | none => rw [hl] at h2; cases h2
  | some p => rw [hl] at h2; exact ⟨r, x, p.1, p.2, h1, hl, h2⟩

theorem gap_of {pre post : List Op} {r x : Nat} {c : Cached} {q : State → Bool}
    (hk : ((run plat boot pre).any fun s => fills s r x c &&
      (survive plat c s post).any q) = true) :
    ∃ s T, TlbReach plat (fun _ _ => True) s T ∧ T c ∧ q s = true := by
  cases h1 : run plat boot pre with
  | none => rw [h1] at hk; cases hk
  | some s =>
    rw [h1] at hk
    simp only [Option.any_some, Bool.and_eq_true] at hk
    obtain ⟨T, hT⟩ := (run_reach pre (Reach.init boot_init) h1).tlb
    have hT' := TlbReach.fill hT (fills_fill hk.1)
    cases h2 : survive plat c s post with
    | none => rw [h2] at hk; cases hk.2
    | some s' =>
      rw [h2] at hk
      obtain ⟨T2, h3, h4⟩ := survive_reach post hT' (Or.inl rfl) h2
      exact ⟨s', T2, h3, h4, hk.2⟩

/-- A realm (descriptor 16, root 17) with a level 2 table (18) at the start of the unprotected
half, with a 2MB block of host memory mapped at offset 4MB. -/
def Demo.nsTable : List Op :=
  delegates 16 3 ++ [.realmCreate (G 16) (G 1) (rparams (G 17) 7), .rttCreate (G 16) (G 18) (2 ^ 32) 2,
    .rttMapUnprotected (G 16) (2 ^ 32 + 2 ^ 22) 2 0x40000000]

/-- C39 is false for RTT_DESTROY of a level 2 table of the unprotected half: 2MB of the 1GB are
invalidated.  The realm keeps access, through the TLB, to host memory at a place where its tables say
nothing is mapped. -/
theorem C39_destroy_gap : ∃ s T c, TlbReach plat (fun _ _ => True) s T ∧ T c ∧ c.covers (2 ^ 32 + 2 ^ 22) ∧
    s.st (G 16) = .rd ∧ (rdOf s (G 16)).vmid = c.vmid ∧ view s (G 16) (2 ^ 32 + 2 ^ 22) = some .unassignedNs := by
  obtain ⟨s, T, h1, h2, h3⟩ := gap_of (pre := nsTable) (post := [.rttDestroy (G 16) (2 ^ 32) 2]) (r := G 16)
    (x := 2 ^ 32 + 2 ^ 22) (c := ⟨7, 2 ^ 32 + 2 ^ 22, 2 ^ 21, 0x40000000, some 0⟩)
    (q := fun s => s.st (G 16) == .rd && (rdOf s (G 16)).vmid == 7 &&
      view s (G 16) (2 ^ 32 + 2 ^ 22) == some .unassignedNs) (by decide +kernel)
  simp only [Bool.and_eq_true, beq_iff_eq] at h3
  exact ⟨s, T, _, h1, h2, ⟨by decide, by decide⟩, h3.1.1, h3.1.2, h3.2⟩

/-- C39 is false for REALM_DESTROY: with a 1GB block of host memory in the starting level table, the
realm is destroyed and its VMID is free, and then given to a new realm (19, 20), without any TLB
invalidation.  The new realm can use the old realm's translation. -/
theorem C39_realm_gap : ∃ s T c, TlbReach plat (fun _ _ => True) s T ∧ T c ∧ c.covers (2 ^ 32) ∧
    s.st (G 16) = .delegated ∧ s.st (G 19) = .rd ∧ (rdOf s (G 19)).vmid = c.vmid ∧
    view s (G 19) (2 ^ 32) = some .unassignedNs := by
  obtain ⟨s, T, h1, h2, h3⟩ := gap_of
    (pre := delegates 16 5 ++ [.realmCreate (G 16) (G 1) (rparams (G 17) 7), .rttMapUnprotected (G 16) (2 ^ 32) 1 0x40000000])
    (post := [.realmDestroy (G 16), .realmCreate (G 19) (G 1) (rparams (G 20) 7)]) (r := G 16)
    (x := 2 ^ 32) (c := ⟨7, 2 ^ 32, 2 ^ 30, 0x40000000, some 0⟩)
    (q := fun s => s.st (G 16) == .delegated && s.st (G 19) == .rd && (rdOf s (G 19)).vmid == 7 &&
      view s (G 19) (2 ^ 32) == some .unassignedNs) (by decide +kernel)
  simp only [Bool.and_eq_true, beq_iff_eq] at h3
  exact ⟨s, T, _, h1, h2, ⟨by decide, by decide⟩, h3.1.1.1, h3.1.1.2, h3.1.2, h3.2⟩

/-- C39 is false after RTT_FOLD of a level 2 table: a table of 512 blocks of host memory is folded
into one 1GB block, which invalidates the first 2MB, and the block is unmapped, which
invalidates its first page.  The translation of the third block stays cached.
(The same sequence for protected memory needs the 262144 pages of 1GB, see DESIGN.md.) -/
theorem C39_fold_gap : ∃ s T c, TlbReach plat (fun _ _ => True) s T ∧ T c ∧ c.covers (2 ^ 32 + 2 ^ 22) ∧
    s.st (G 16) = .rd ∧ (rdOf s (G 16)).vmid = c.vmid ∧ view s (G 16) (2 ^ 32 + 2 ^ 22) = some .unassignedNs := by
  obtain ⟨s, T, h1, h2, h3⟩ := gap_of
    (pre := delegates 16 3 ++ [.realmCreate (G 16) (G 1) (rparams (G 17) 7), .rttCreate (G 16) (G 18) (2 ^ 32) 2] ++
      (List.range 512).map fun i => .rttMapUnprotected (G 16) (2 ^ 32 + i * 2 ^ 21) 2 (BitVec.ofNat 64 (0x40000000 + i * 2 ^ 21)))
    (post := [.rttFold (G 16) (2 ^ 32) 2, .rttUnmapUnprotected (G 16) (2 ^ 32) 1]) (r := G 16)
    (x := 2 ^ 32 + 2 ^ 22) (c := ⟨7, 2 ^ 32 + 2 ^ 22, 2 ^ 21, 0x40000000 + 2 ^ 22, some 0⟩)
    (q := fun s => s.st (G 16) == .rd && (rdOf s (G 16)).vmid == 7 &&
      view s (G 16) (2 ^ 32 + 2 ^ 22) == some .unassignedNs) (by decide +kernel)
  simp only [Bool.and_eq_true, beq_iff_eq] at h3
  exact ⟨s, T, _, h1, h2, ⟨by decide, by decide⟩, h3.1.1, h3.1.2, h3.2⟩

/-- C39 as a whole is false: with all commands there are executions in which the TLB does not
agree with the tables. -/
theorem C39_not_coherent : ∃ s T, TlbReach plat (fun _ _ => True) s T ∧ ¬ Coherent s T := by
  obtain ⟨s, T, c, h1, h2, h3, h4, h5, h6⟩ := C39_fold_gap
  refine ⟨s, T, h1, fun hc => ?_⟩
  obtain ⟨r, k1, k2, k3⟩ := hc c h2
  have hr : r = G 16 := by
    by_contra hn
    exact C22_unique plat_ok h1.reach k1 h4 hn (k2.trans h5.symm)
  have := k3 _ h3
  rw [hr, h6] at this
  rcases c.page_cases (2 ^ 32 + 2 ^ 22) with ⟨pa, hp⟩ | ⟨at_, pa, hp⟩ <;> rw [hp] at this <;> cases this

/-- The executions of `C39_coherent_partial` contain cached protected and unprotected translations. -/
example : ∃ s c c', Reach plat s ∧ Fill s c ∧ Fill s c' ∧ c.ns = none ∧ c'.ns ≠ none := by
  obtain ⟨s, h1, h2⟩ := Demo.ex all (fun s => fills s (G 16) 4096 ⟨7, 4096, 4096, G 23, none⟩ &&
    fills s (G 16) (2 ^ 32) ⟨7, 2 ^ 32, 4096, 0x9000, some 0⟩) (by decide +kernel)
  simp only [Bool.and_eq_true] at h2
  exact ⟨s, _, _, h1, fills_fill h2.1, fills_fill h2.2, rfl, by simp⟩

/-- An invalidation that is needed and happens: DATA_DESTROY of a RAM page. -/
example : ∃ s, Reach plat s ∧ (fills s (G 16) 4096 ⟨7, 4096, 4096, G 23, none⟩ &&
    (survive plat ⟨7, 4096, 4096, G 23, none⟩ s [.dataDestroy (G 16) 4096]).isNone) = true :=
  Demo.ex all _ (by decide +kernel)

end Verif.Rmm
