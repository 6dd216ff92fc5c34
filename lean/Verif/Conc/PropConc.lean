import Verif.Conc.Lock
import Verif.LockSet.Props

/-!
# C40: mutual exclusion; C41: no deadlock
-/

namespace Verif.Conc

/-! ## C40 -/

/-- C40 (partial: the commands with the corrected error path of RMI_REC_CREATE, see
`C40_rec_create_unlocks_unheld`): in every interleaving of the commands, at every point at
most one CPU is in the critical section of a granule. -/
theorem C40_exclusive_partial (m : WMach) (h : WReach m) (a i j : Nat)
    (hi : InCS m i a) (hj : InCS m j a) : i = j := by
  obtain ⟨k, hs⟩ := wreach_sim m h
  have hok := reach_ok k hs.reach
  have own : ∀ i, (∃ x ∈ (m.cpu i).hold, x.addr = a) → k.owner a = some i := by
    intro i ⟨x, hx, ha⟩
    obtain ⟨s, hc⟩ := hok.cpu i
    rw [hs.cpu] at hx
    rw [← ha]; exact hc.own x hx
  rcases hi with hi | hi <;> rcases hj with hj | hj
  · have h1 := own i hi
    rw [own j hj] at h1
    injection h1 with h1
    exact h1.symm
  · have h1 := own i hi
    rw [(hs.prb a j hj).2.1] at h1; cases h1
  · have h1 := own j hj
    rw [(hs.prb a i hi).2.1] at h1; cases h1
  · exact (hs.prb a j hj).2.2 i hi

/-- C40 (partial): the lock bit of a granule is set exactly while a CPU is in its critical
section; in particular no lock is lost and none is left behind. -/
theorem C40_bit_partial (m : WMach) (h : WReach m) (a : Nat) :
    (m.word a).getLsbD 15 = true ↔ ∃ i, InCS m i a := by
  obtain ⟨k, hs⟩ := wreach_sim m h
  have hok := reach_ok k hs.reach
  constructor
  · intro hb
    rcases hs.set a hb with ⟨i, hi⟩ | ⟨i, hi⟩
    · obtain ⟨x, hx, ha⟩ := hok.held a i hi
      exact ⟨i, Or.inl ⟨x, by rw [hs.cpu]; exact hx, ha⟩⟩
    · exact ⟨i, Or.inr hi⟩
  · rintro ⟨i, ⟨x, hx, ha⟩ | hi⟩
    · obtain ⟨s, hc⟩ := hok.cpu i
      rw [hs.cpu] at hx
      exact hs.own a i (by rw [← ha]; exact hc.own x hx)
    · exact (hs.prb a i hi).1

/-- C40 (partial): a CPU whose next operation is an unlock of `t`, a state change of `t`, or
the mapping of a locked granule holds that lock.  The steps `rel`, `read` and `eor` of the
machine therefore do not restrict the executions. -/
theorem C40_unlock_by_holder_partial (m : WMach) (h : WReach m) (i : Nat) (t : Tag) (e : Ev)
    (he : e = .rel t ∨ e = .trans t) (hl : Legal ((m.cpu i).tr ++ [e])) :
    ∃ x ∈ (m.cpu i).hold, x.tag = t := by
  obtain ⟨k, hs⟩ := wreach_sim m h
  obtain ⟨s, hc⟩ := (reach_ok k hs.reach).cpu i
  rw [hs.cpu] at hl ⊢
  obtain ⟨s', h1, _⟩ := legal_step _ _ hl s hc.run
  rcases he with rfl | rfl
  · simp only [step] at h1
    split at h1
    case isFalse => cases h1
    case isTrue hcond => exact (holds_iff s _ hc.held t).1 hcond
  · simp only [step] at h1
    split at h1
    case isFalse => cases h1
    case isTrue hcond => exact (holds_iff s _ hc.held t).1 hcond

/-- C40 (partial): `granule_set_state` reads the descriptor and later applies an exclusive
or.  Whatever other CPUs do in between, the result has exactly the new state, and neither
the lock bit nor the reference count at that time is disturbed. -/
theorem C40_set_state_partial (m : WMach) (h : WReach m) (i a : Nat) (r : Desc) (st : BitVec 5)
    (hse : m.seen i = some (a, r)) :
    let w := m.word a ^^^ eorVal r st
    w.extractLsb' 10 5 = st ∧ w.extractLsb' 0 10 = (m.word a).extractLsb' 0 10 ∧
      w.getLsbD 15 = (m.word a).getLsbD 15 := by
  obtain ⟨k, hs⟩ := wreach_sim m h
  obtain ⟨_, h2⟩ := hs.seen i a r hse
  exact eor_state _ _ st h2

/-- The counters: an increment that fits and a decrement that does not go below zero change
the count only. -/
theorem C40_refcount (w : Desc) (n : Nat) :
    ((w.extractLsb' 0 10).toNat + n ≤ 1023 →
      ((w + BitVec.ofNat 16 n).extractLsb' 0 10).toNat = (w.extractLsb' 0 10).toNat + n ∧
      (w + BitVec.ofNat 16 n).extractLsb' 10 5 = w.extractLsb' 10 5 ∧
      (w + BitVec.ofNat 16 n).getLsbD 15 = w.getLsbD 15) ∧
    (n ≤ (w.extractLsb' 0 10).toNat →
      ((w + -BitVec.ofNat 16 n).extractLsb' 0 10).toNat = (w.extractLsb' 0 10).toNat - n ∧
      (w + -BitVec.ofNat 16 n).extractLsb' 10 5 = w.extractLsb' 10 5 ∧
      (w + -BitVec.ofNat 16 n).getLsbD 15 = w.getLsbD 15) :=
  ⟨inc_count w n, dec_count w n⟩

/-- Number of locks of `t` taken minus released in a trace. -/
def lockBalance (t : Tag) (w : List Ev) : Int :=
  (w.map (fun e => match e with
    | .acq u _ => if u = t then (1 : Int) else 0
    | .rel u => if u = t then -1 else 0
    | _ => 0)).sum

/-- Finding: the code of RMI_REC_CREATE (runtime/rmi/rec.c:288-296) is different: if the
second auxiliary granule is not available, it unlocks the first one again, though it does
not hold that lock any more. -/
theorem C40_rec_create_unlocks_unheld :
    ∃ v w, Lang recCreate (v ++ .rel .aux :: w) ∧ lockBalance .aux v = 0 ∧
      lockBalance .aux (v ++ [.rel .aux]) = -1 := by
  refine ⟨[.nsAccess, .acq .aux .first, .trans .aux, .rel .aux, .miss .first], [], ?_, by decide, by decide⟩
  have hbody : Lang (evs [.acq .aux .first, .trans .aux, .rel .aux])
      [.acq .aux .first, .trans .aux, .rel .aux] :=
    Lang.seq (Lang.ev _) (Lang.seq (Lang.ev _) (Lang.ev _))
  refine Lang.altr (Lang.seq (v := [.nsAccess]) (Lang.ev _) (Lang.altr ?_))
  refine Lang.seq (v := [.acq .aux .first, .trans .aux, .rel .aux])
    (w := [.miss .first, .rel .aux]) ?_ (Lang.altl ?_)
  · exact Lang.starCons (w := []) hbody Lang.starNil
  · refine Lang.seq (v := [.miss .first]) (w := [.rel .aux]) (Lang.altr (Lang.ev _)) ?_
    exact Lang.seq (v := [.rel .aux]) (w := []) (Lang.starCons (w := []) (Lang.ev _) Lang.starNil)
      Lang.starNil

/-- One lock word and the CPUs that obtained the lock and did not release it. -/
def lockOps : Desc × List Nat → List (Nat × Bool) → Desc × List Nat
  | s, [] => s
  | (w, hs), (i, true) :: l =>
    lockOps (ldset w, if locked w then hs else i :: hs) l
  | (w, hs), (i, false) :: l => lockOps (stclr w, hs.filter (· != i)) l

/-- The consequence: CPU 0 holds the lock of the granule for another command, the extra
unlock by CPU 1 clears the bit (its assertion `LOCKED(g)` holds), CPU 2 takes the lock: two
CPUs are in the critical section. -/
theorem C40_extra_unlock_breaks_exclusion :
    (lockOps (0#16, []) [(0, true), (1, false), (2, true)]).2 = [2, 0] := by decide

/-! ## C41 -/

/-- CPU `i` waits for the lock of the granule at `a`: the next operation of its command is
to take that lock, and the lock bit is set.  For granules that are not named by the Host
(`granule_lock`: the pointer comes from a locked table, an RD or a REC), the state is the
expected one; the code relies on it (granule.h:181-191), and `C07`, `C09` prove it
for the sequential model. -/
def Waits (m : WMach) (i a : Nat) : Prop :=
  m.probe i = none ∧ m.seen i = none ∧ (m.word a).getLsbD 15 = true ∧
    ∃ (h : How) (lvl : Nat) (e : Ev), (e = .miss h ∨ ∃ t, e = .acq t h) ∧
      Legal ((m.cpu i).tr ++ [e]) ∧ okAddr (m.cpu i).hold a lvl h ∧
      (h.kind ≠ .ext → m.cls a = gstOf h.kind lvl)

/-- The order of locks. -/
def rank (k : Kind) (a lvl : Nat) : ℕ ×ₗ ℕ ×ₗ ℕ :=
  match k with
  | .ext => toLex (0, toLex (0, a))
  | .rtt => toLex (1, toLex (lvl, a))
  | .dat => toLex (2, toLex (0, a))
  | .aux => toLex (3, toLex (0, a))

theorem lex_lt (a b c d e f : Nat) : (toLex (a, toLex (b, c)) : ℕ ×ₗ ℕ ×ₗ ℕ) < toLex (d, toLex (e, f)) ↔
    a < d ∨ (a = d ∧ (b < e ∨ (b = e ∧ c < f))) := by
  rw [Prod.Lex.toLex_lt_toLex, Prod.Lex.toLex_lt_toLex]

/-- The next lock of a command is above all locks it holds. -/
theorem rank_order (s : St) (l : List Hold) (hh : s.held = l.map (fun x => (x.tag, x.kind)))
    (htags : (l.map (fun x => x.tag)).Nodup)
    (h : How) (ho : orderOk s h = true) (a lvl : Nat) (ha : okAddr l a lvl h) :
    ∀ x ∈ l, rank x.kind x.addr x.lvl < rank h.kind a lvl := by
  intro x hx
  have hin : s.inner = [] → x.kind = .ext := by
    intro hi
    by_contra hne
    have : (x.tag, x.kind) ∈ s.inner := by
      unfold St.inner
      rw [List.mem_filter]
      refine ⟨by rw [hh]; exact List.mem_map.2 ⟨x, hx, rfl⟩, by simpa using hne⟩
    rw [hi] at this; cases this
  have hin2 : s.inner = [(.llt, .rtt)] → x.kind = .ext ∨ (x.kind = .rtt ∧ x.tag = .llt) := by
    intro hi
    by_cases hne : x.kind = .ext
    · exact Or.inl hne
    · have : (x.tag, x.kind) ∈ s.inner := by
        unfold St.inner
        rw [List.mem_filter]
        refine ⟨by rw [hh]; exact List.mem_map.2 ⟨x, hx, rfl⟩, by simpa using hne⟩
      rw [hi] at this
      simp only [List.mem_cons, Prod.mk.injEq, List.not_mem_nil, or_false] at this
      exact Or.inr ⟨this.2, this.1⟩
  cases h with
  | first =>
    simp only [orderOk, beq_iff_eq] at ho
    rw [hh] at ho
    have : l = [] := by simpa using ho
    rw [this] at hx; cases hx
  | above =>
    simp only [orderOk, beq_iff_eq] at ho
    have hk := hin ho
    have := ha x hx hk
    rw [hk]
    show rank .ext _ _ < rank .ext _ _
    simp only [rank]
    rw [lex_lt]; omega
  | root =>
    simp only [orderOk, beq_iff_eq] at ho
    rw [hin ho]
    show rank .ext _ _ < rank .rtt _ _
    simp only [rank]
    rw [lex_lt]; omega
  | concat =>
    simp only [orderOk, beq_iff_eq] at ho
    obtain ⟨y, hy, hyt, hya, hyl⟩ := ha
    show _ < rank .rtt _ _
    rcases hin2 ho with hk | ⟨hk, ht⟩
    · rw [hk]; simp only [rank]; rw [lex_lt]; omega
    · have : x = y := eq_of_tag htags hx hy (by rw [ht, hyt])
      subst this
      rw [hk]; simp only [rank]; rw [lex_lt]; omega
  | next =>
    simp only [orderOk, beq_iff_eq] at ho
    obtain ⟨y, hy, hyt, hyl⟩ := ha
    show _ < rank .rtt _ _
    rcases hin2 ho with hk | ⟨hk, ht⟩
    · rw [hk]; simp only [rank]; rw [lex_lt]; omega
    · have : x = y := eq_of_tag htags hx hy (by rw [ht, hyt])
      subst this
      rw [hk]; simp only [rank]; rw [lex_lt]; omega
  | dat =>
    simp only [orderOk, beq_iff_eq] at ho
    show _ < rank .dat _ _
    rcases hin2 ho with hk | ⟨hk, ht⟩
    · rw [hk]; simp only [rank]; rw [lex_lt]; omega
    · rw [hk]; simp only [rank]; rw [lex_lt]; omega
  | aux =>
    simp only [orderOk, beq_iff_eq] at ho
    rw [hin ho]
    show rank .ext _ _ < rank .aux _ _
    simp only [rank]
    rw [lex_lt]; omega

/-- A waiting CPU: the lock it waits for is above the locks it holds, and the granules it
holds still are what they were when they were locked. -/
theorem waits_facts (m : WMach) (k : Mach) (hs : Sim m k) (i a : Nat) (hw : Waits m i a) :
    ∃ (h : How) (lvl : Nat), (h.kind ≠ .ext → m.cls a = gstOf h.kind lvl) ∧
      (∀ x ∈ (m.cpu i).hold, rank x.kind x.addr x.lvl < rank h.kind a lvl) ∧
      (∀ x ∈ (m.cpu i).hold, m.cls x.addr = gstOf x.kind x.lvl) := by
  obtain ⟨_, _, _, h, lvl, e, he, hl, ha, hc⟩ := hw
  obtain ⟨s, hcpu⟩ := (reach_ok k hs.reach).cpu i
  rw [hs.cpu] at hl ha ⊢
  obtain ⟨s', h1, _⟩ := legal_step _ _ hl s hcpu.run
  have hord : orderOk s h = true ∧ s.changed = [] := by
    rcases he with rfl | ⟨t, rfl⟩
    · simp only [step] at h1
      split at h1
      case isFalse => cases h1
      case isTrue hcond => exact hcond
    · simp only [step] at h1
      split at h1
      case isFalse => cases h1
      case isTrue hcond => exact ⟨hcond.1, hcond.2.2⟩
  refine ⟨h, lvl, hc, rank_order s _ hcpu.held hcpu.tags h hord.1 a lvl ha, ?_⟩
  intro x hx
  rw [hs.cls]
  exact hcpu.cls x hx (by rw [hord.2]; simp)

/-- C41: in every interleaving of the commands (with the corrected RMI_REC_CREATE), there
is never a non-empty set of CPUs that all wait for locks held within the set. -/
theorem C41_no_deadlock (m : WMach) (h : WReach m) (S : List Nat) (hS : S ≠ []) :
    ¬ ∀ i ∈ S, ∃ a, Waits m i a ∧ ∃ j ∈ S, InCS m j a := by
  intro hall
  obtain ⟨k, hs⟩ := wreach_sim m h
  have hf : ∀ i, ∃ r : ℕ ×ₗ ℕ ×ₗ ℕ, i ∈ S → ∃ (a : Nat) (hw : How) (lvl : Nat),
      r = rank hw.kind a lvl ∧ (hw.kind ≠ .ext → m.cls a = gstOf hw.kind lvl) ∧
      (∀ x ∈ (m.cpu i).hold, rank x.kind x.addr x.lvl < r) ∧
      (∀ x ∈ (m.cpu i).hold, m.cls x.addr = gstOf x.kind x.lvl) ∧ m.probe i = none ∧
      ∃ j ∈ S, InCS m j a := by
    intro i
    by_cases hi : i ∈ S
    · obtain ⟨a, hw, hj⟩ := hall i hi
      obtain ⟨how, lvl, h1, h2, h3⟩ := waits_facts m k hs i a hw
      exact ⟨rank how.kind a lvl, fun _ => ⟨a, how, lvl, rfl, h1, h2, h3, hw.1, hj⟩⟩
    · exact ⟨toLex (0, toLex (0, 0)), fun h => absurd h hi⟩
  choose r hr using hf
  -- a member with the greatest wanted lock
  obtain ⟨i, hi, hmax⟩ : ∃ i ∈ S, ∀ j ∈ S, r j ≤ r i := by
    clear hall hr
    induction S with
    | nil => exact absurd rfl hS
    | cons b l ih =>
      by_cases hl : l = []
      · subst hl
        exact ⟨b, by simp, fun j hj => by simp only [List.mem_cons, List.not_mem_nil, or_false] at hj; rw [hj]⟩
      · obtain ⟨c, hc, hcm⟩ := ih hl
        rcases le_total (r b) (r c) with hle | hle
        · refine ⟨c, List.mem_cons_of_mem _ hc, fun j hj => ?_⟩
          rcases List.mem_cons.1 hj with rfl | hj
          · exact hle
          · exact hcm j hj
        · refine ⟨b, List.mem_cons_self, fun j hj => ?_⟩
          rcases List.mem_cons.1 hj with rfl | hj
          · exact le_refl _
          · exact le_trans (hcm j hj) hle
  obtain ⟨a, how, lvl, hre, hcls, _, _, _, j, hj, hcs⟩ := hr i hi
  obtain ⟨_, _, _, _, _, hlt, hclj, hpj, _⟩ := hr j hj
  rcases hcs with ⟨x, hx, hxa⟩ | hp
  · have h1 := hlt x hx
    have h2 := hclj x hx
    have hle : r i ≤ rank x.kind x.addr x.lvl := by
      rw [hre]
      by_cases hk : how.kind = .ext
      · rw [hk, hxa]
        cases hxk : x.kind with
        | ext => exact le_refl _
        | rtt => exact le_of_lt (by simp only [rank]; rw [lex_lt]; omega)
        | dat => exact le_of_lt (by simp only [rank]; rw [lex_lt]; omega)
        | aux => exact le_of_lt (by simp only [rank]; rw [lex_lt]; omega)
      · have h3 := hcls hk
        rw [hxa] at h2
        rw [h2] at h3
        rw [hxa]
        cases hxk : x.kind <;> cases hkk : how.kind <;> simp only [hxk, hkk, gstOf] at h3 hk ⊢ <;>
          cases h3
        all_goals exact le_refl _
    exact absurd (lt_of_le_of_lt hle h1) (not_lt_of_ge (hmax j hj))
  · rw [hpj] at hp; cases hp

/-- C41: if CPUs from `n` on do not exist, then whenever a CPU waits, some CPU holds a lock
that is waited for and does not wait itself. -/
theorem C41_someone_runs (m : WMach) (h : WReach m) (n : Nat)
    (hn : ∀ i, n ≤ i → ∀ a, ¬ InCS m i a) (i a : Nat) (hin : i < n) (hi : Waits m i a) :
    ∃ j b, InCS m j b ∧ (∃ k, Waits m k b) ∧ ∀ d, ¬ Waits m j d := by
  by_contra hcon
  push Not at hcon
  classical
  let S := (List.range n).filter (fun j => decide (∃ d, Waits m j d))
  have hS : i ∈ S := by
    simp only [S, List.mem_filter, List.mem_range, decide_eq_true_eq]
    exact ⟨hin, a, hi⟩
  refine C41_no_deadlock m h S (fun e => by rw [e] at hS; cases hS) ?_
  intro k hk
  simp only [S, List.mem_filter, List.mem_range, decide_eq_true_eq] at hk
  obtain ⟨d, hd⟩ := hk.2
  refine ⟨d, hd, ?_⟩
  obtain ⟨j, hj⟩ := (C40_bit_partial m h d).1 hd.2.2.1
  refine ⟨j, ?_, hj⟩
  simp only [S, List.mem_filter, List.mem_range, decide_eq_true_eq]
  have hjn : j < n := by
    by_contra hge
    exact hn j (by omega) d hj
  refine ⟨hjn, ?_⟩
  by_contra hno
  have hno' : ∀ d, ¬ Waits m j d := fun d hd => hno ⟨d, hd⟩
  obtain ⟨e, he⟩ := hcon j d hj ⟨k, hd⟩
  exact hno' e he

/-- `find_lock_granules` takes the locks of a set in ascending order of address: this is the
condition `above` of `okAddr`.  (`gp k` is the granule locked at position `k`.) -/
theorem C41_sets_ascending (find : Nat → Option Nat)
    (hinj : ∀ x y g, find x = some g → find y = some g → x = y)
    (env : Nat → Nat → Nat) (gs : LockSet.Arr) (n : Nat) (held : LockSet.Held)
    (hfree : ∀ g, LockSet.Requested find (LockSet.sortGranules gs n) n g → held g = false) :
    ∃ ok i gp h', LockSet.lockLoop find env (LockSet.sortGranules gs n) n 0 (fun _ => 0) held =
        some (ok, i, gp, h') ∧
      ∀ p q, p < q → q < i →
        (LockSet.sortGranules gs n p).addr < (LockSet.sortGranules gs n q).addr := by
  obtain ⟨hsort, _⟩ := LockSet.sortGranules_spec gs n
  obtain ⟨ok, i, gp, h', h1, _, h2, _⟩ := LockSet.lockLoop_spec find hinj env (LockSet.sortGranules gs n) n
    hsort held hfree n 0 (fun _ => 0) held (by omega)
    ⟨fun g => ⟨Or.inl, fun hh => hh.elim id (fun ⟨k, hk, _⟩ => by omega)⟩, fun k hk => by omega,
      fun p q _ hq => by omega⟩
  exact ⟨ok, i, gp, h', h1, h2.strict⟩

/-- The same for `find_lock_rd_granules` (runtime/rmi/realm.c:338-391): `addr_is_contained`
was false (realm.c:412-415), so the RD is either below all tables or above all of them. -/
theorem C41_rd_and_tables (rd base n i : Nat)
    (hout : ¬ (base ≤ rd ∧ rd < base + n * 4096)) (hi : i < n) :
    (rd < base → rd < base + i * 4096) ∧ (¬ rd < base → base + i * 4096 < rd) := by
  constructor
  · intro h; omega
  · intro h
    have : i * 4096 < n * 4096 := by omega
    omega

/-! ## A concrete execution -/

/-- Two CPUs delegate the same granule: CPU 0 has the lock, CPU 1 waits for it. -/
def m0 : WMach := ⟨fun _ => 0#16, fun _ => .ext, fun _ => ⟨[], []⟩, fun _ => none, fun _ => none⟩

def m1 : WMach :=
  { m0 with
    word := upd m0.word 4096 (ldset (m0.word 4096))
    cpu := upd m0.cpu 0 ⟨[] ++ [.acq .gran .first], [] ++ [⟨.gran, .ext, 4096, 0⟩]⟩ }

theorem legal_delegate : Legal [.acq .gran .first] := by
  refine ⟨granuleDelegate, List.mem_cons_of_mem _ List.mem_cons_self, [.rel .gran], ?_⟩
  exact Lang.altr (Lang.seq (v := [.acq .gran .first]) (w := [.rel .gran]) (Lang.ev _)
    (Lang.seq (v := []) (w := [.rel .gran]) (Lang.altl Lang.nop) (Lang.ev _)))

example : WReach m1 ∧ InCS m1 0 4096 ∧ Waits m1 1 4096 ∧ ¬ InCS m1 1 4096 := by
  refine ⟨?_, Or.inl ⟨⟨.gran, .ext, 4096, 0⟩, ?_, rfl⟩, ?_, ?_⟩
  · refine WReach.step 0 (WReach.init m0 (fun _ => by show locked 0#16 = false; decide) (fun _ => rfl)
      (fun _ => rfl) (fun _ => rfl)) ?_
    exact WStep.acq (m := m0) .gran .first 4096 0 rfl rfl legal_delegate trivial
      (by show locked 0#16 = false; decide) rfl
  · show _ ∈ (upd m0.cpu 0 _ 0).hold
    rw [upd_same]; exact List.mem_cons_self
  · refine ⟨rfl, rfl, ?_, .first, 0, .acq .gran .first, Or.inr ⟨_, rfl⟩, ?_, trivial, ?_⟩
    · show (upd m0.word 4096 _ 4096).getLsbD 15 = true
      rw [upd_same]; decide
    · exact legal_delegate
    · intro h; exact absurd rfl h
  · rintro (⟨x, hx, _⟩ | hp)
    · have h : m1.cpu 1 = ⟨[], []⟩ := rfl
      rw [h] at hx
      cases hx
    · cases hp

end Verif.Conc
