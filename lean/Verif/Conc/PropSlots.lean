import Verif.Conc.Handlers

/-!
# C47, C58: slots, locks and references along every path of every command

The statements count operations in traces and do not mention the checker of
`Verif.Conc.Flow`.
-/

namespace Verif.Conc

/-! ### What a trace has done -/

/-- How often slot `n` was mapped. -/
def maps (n : Nat) (w : List Ev) : Nat :=
  w.countP (fun e => match e with | .map m _ => m == n | _ => false)

/-- How often slot `n` was unmapped. -/
def unmaps (n : Nat) (w : List Ev) : Nat :=
  w.countP (fun e => match e with | .unmap m => m == n | _ => false)

/-- The locks held after one more operation. -/
def lockEff (l : Tag → Bool) : Ev → Tag → Bool
  | .acq t _, x => if x = t then true else l x
  | .rel t, x => if x = t then false else l x
  | .mv t u, x => if x = u then true else if x = t then false else l x
  | _, x => l x

/-- Whether the granule in variable `t` is locked after a trace. -/
def lockedAfter (w : List Ev) : Tag → Bool := w.foldl lockEff (fun _ => false)

/-- The references held after one more operation. -/
def refEff (l : Tag → Bool) : Ev → Tag → Bool
  | .get t, x => if x = t then true else l x
  | .put t, x => if x = t then false else l x
  | _, x => l x

/-- Whether a reference to the granule in variable `t` is held after a trace. -/
def refAfter (w : List Ev) : Tag → Bool := w.foldl refEff (fun _ => false)

/-! ### The state of the checker agrees with the counts -/

structure Agrees (s : St) (v : List Ev) : Prop where
  slots : ∀ n, maps n v = unmaps n v + (if s.slots.contains n then 1 else 0)
  locks : ∀ t, lockedAfter v t = s.holds t
  refs : ∀ t, refAfter v t = s.refs.contains t

theorem maps_snoc (n : Nat) (v : List Ev) (e : Ev) :
    maps n (v ++ [e]) = maps n v + (match e with | .map m _ => if m = n then 1 else 0 | _ => 0) := by
  unfold maps
  rw [List.countP_append]
  cases e <;> simp

theorem unmaps_snoc (n : Nat) (v : List Ev) (e : Ev) :
    unmaps n (v ++ [e]) = unmaps n v + (match e with | .unmap m => if m = n then 1 else 0 | _ => 0) := by
  unfold unmaps
  rw [List.countP_append]
  cases e <;> simp

theorem locked_snoc (v : List Ev) (e : Ev) (t : Tag) :
    lockedAfter (v ++ [e]) t = lockEff (lockedAfter v) e t := by
  simp [lockedAfter]

theorem ref_snoc (v : List Ev) (e : Ev) (t : Tag) :
    refAfter (v ++ [e]) t = refEff (refAfter v) e t := by
  simp [refAfter]

theorem holds_append (s : St) (t u : Tag) (k : Kind) :
    (s.held ++ [(t, k)]).any (fun x => x.1 == u) = (s.holds u || (t == u)) := by
  simp [St.holds]

theorem holds_filter (l : List (Tag × Kind)) (t u : Tag) :
    (l.filter (fun x => x.1 != t)).any (fun x => x.1 == u) =
      if u = t then false else l.any (fun x => x.1 == u) := by
  induction l with
  | nil => simp
  | cons a l ih =>
    rw [List.filter_cons]
    by_cases h : a.1 = t
    · rw [if_neg (by simp [h]), ih]
      by_cases h2 : u = t
      · simp [h2]
      · rw [if_neg h2, if_neg h2, List.any_cons]
        simp [h, Ne.symm h2]
    · rw [if_pos (by simpa using h), List.any_cons, ih]
      by_cases h2 : u = t
      · subst h2; simp [h]
      · rw [if_neg h2, if_neg h2, List.any_cons]

theorem holds_rename (l : List (Tag × Kind)) (t u x : Tag) (hne : t ≠ u)
    (ht : l.any (fun y => y.1 == t) = true) :
    (l.map (rename t u)).any (fun y => y.1 == x) =
      if x = u then true else if x = t then false else l.any (fun y => y.1 == x) := by
  by_cases hu : x = u
  · subst hu
    rw [if_pos rfl, List.any_map]
    rw [List.any_eq_true] at ht ⊢
    obtain ⟨y, hy, hyt⟩ := ht
    refine ⟨y, hy, ?_⟩
    simp only [beq_iff_eq] at hyt
    simp [rename, hyt]
  · rw [if_neg hu, List.any_map]
    by_cases hx : x = t
    · subst hx
      rw [if_pos rfl, List.any_eq_false]
      intro y _
      simp only [Function.comp, rename, beq_iff_eq]
      split
      · exact fun h => hu h.symm
      · assumption
    · rw [if_neg hx]
      congr 1
      funext y
      simp only [Function.comp, rename]
      split
      · rename_i h
        have h1 : (u == x) = false := beq_eq_false_iff_ne.2 (fun h => hu h.symm)
        have h2 : (y.1 == x) = false := beq_eq_false_iff_ne.2 (fun h' => hx (by rw [← h', h]))
        rw [h1, h2]
      · rfl

theorem contains_filter {α : Type} [DecidableEq α] (l : List α) (n m : α) :
    (l.filter (· != n)).contains m = if m = n then false else l.contains m := by
  by_cases h : m = n
  · subst h; simp
  · simp [h]

/-- One operation and the slots. -/
theorem slots_step {s s' : St} {e : Ev} (h : step s e = some s') (n : Nat) :
    (if s.slots.contains n then 1 else 0) + (match e with | .map m _ => if m = n then 1 else 0 | _ => 0)
      = (match e with | .unmap m => if m = n then 1 else 0 | _ => 0)
        + (if s'.slots.contains n then 1 else 0) := by
  cases e with
  | map m t =>
    simp only [step] at h
    split at h
    case isFalse => cases h
    case isTrue hc =>
      cases h
      have hc1 := hc.1
      simp only [List.contains_eq_mem, decide_eq_true_eq] at hc1 ⊢
      by_cases hn : m = n
      · subst hn; simp [hc1]
      · simp [hn, Ne.symm hn]
  | unmap m =>
    simp only [step] at h
    split at h
    case isFalse => cases h
    case isTrue hc =>
      cases h
      simp only [List.contains_eq_mem, decide_eq_true_eq, List.mem_filter, bne_iff_ne] at hc ⊢
      by_cases hn : m = n
      · subst hn; simp [hc]
      · simp [hn, Ne.symm hn]
  | _ =>
    simp only [step] at h
    split at h
    case isFalse => cases h
    case isTrue hc => cases h; simp

theorem agrees_step {s s' : St} {v : List Ev} {e : Ev} (ha : Agrees s v)
    (h : step s e = some s') : Agrees s' (v ++ [e]) := by
  obtain ⟨h1, h2, h3⟩ := ha
  cases e with
  | acq t how =>
    simp only [step] at h
    split at h
    case isFalse => cases h
    case isTrue hc =>
      cases h
      refine ⟨fun n => by rw [maps_snoc, unmaps_snoc]; exact h1 n, fun x => ?_,
        fun x => by rw [ref_snoc]; exact h3 x⟩
      rw [locked_snoc]
      show (if x = t then true else lockedAfter v x) = _
      unfold St.holds
      rw [holds_append]
      by_cases hx : x = t
      · subst hx; simp
      · rw [if_neg hx, h2 x, beq_eq_false_iff_ne.2 (Ne.symm hx), Bool.or_false]
  | miss how =>
    simp only [step] at h
    split at h
    case isFalse => cases h
    case isTrue hc =>
      cases h
      exact ⟨fun n => by rw [maps_snoc, unmaps_snoc]; exact h1 n,
        fun x => by rw [locked_snoc]; exact h2 x, fun x => by rw [ref_snoc]; exact h3 x⟩
  | rel t =>
    simp only [step] at h
    split at h
    case isFalse => cases h
    case isTrue hc =>
      cases h
      refine ⟨fun n => by rw [maps_snoc, unmaps_snoc]; exact h1 n, fun x => ?_,
        fun x => by rw [ref_snoc]; exact h3 x⟩
      rw [locked_snoc]
      show (if x = t then false else lockedAfter v x) = _
      unfold St.holds
      rw [holds_filter, h2 x]; rfl
  | trans t =>
    simp only [step] at h
    split at h
    case isFalse => cases h
    case isTrue hc =>
      cases h
      exact ⟨fun n => by rw [maps_snoc, unmaps_snoc]; exact h1 n,
        fun x => by rw [locked_snoc]; exact h2 x, fun x => by rw [ref_snoc]; exact h3 x⟩
  | mv t u =>
    simp only [step] at h
    split at h
    case isFalse => cases h
    case isTrue hc =>
      cases h
      refine ⟨fun n => by rw [maps_snoc, unmaps_snoc]; exact h1 n, fun x => ?_,
        fun x => by rw [ref_snoc]; exact h3 x⟩
      rw [locked_snoc]
      show (if x = u then true else if x = t then false else lockedAfter v x) = _
      unfold St.holds
      rw [holds_rename _ _ _ _ (by rintro rfl; exact hc.2.1 hc.1) hc.1, h2 x]; rfl
  | get t =>
    simp only [step] at h
    split at h
    case isFalse => cases h
    case isTrue hc =>
      cases h
      refine ⟨fun n => by rw [maps_snoc, unmaps_snoc]; exact h1 n,
        fun x => by rw [locked_snoc]; exact h2 x, fun x => ?_⟩
      rw [ref_snoc]
      show (if x = t then true else refAfter v x) = _
      by_cases hx : x = t
      · subst hx; simp
      · rw [if_neg hx, h3 x]; simp [hx]
  | put t =>
    simp only [step] at h
    split at h
    case isFalse => cases h
    case isTrue hc =>
      cases h
      refine ⟨fun n => by rw [maps_snoc, unmaps_snoc]; exact h1 n,
        fun x => by rw [locked_snoc]; exact h2 x, fun x => ?_⟩
      rw [ref_snoc]
      show (if x = t then false else refAfter v x) = (s.refs.filter (· != t)).contains x
      rw [contains_filter, h3 x]
  | map m t =>
    have hs := slots_step h
    simp only [step] at h
    split at h
    case isFalse => cases h
    case isTrue hc =>
      cases h
      refine ⟨fun n => ?_, fun x => by rw [locked_snoc]; exact h2 x,
        fun x => by rw [ref_snoc]; exact h3 x⟩
      have := hs n
      rw [maps_snoc, unmaps_snoc, h1 n]
      omega
  | unmap m =>
    have hs := slots_step h
    simp only [step] at h
    split at h
    case isFalse => cases h
    case isTrue hc =>
      cases h
      refine ⟨fun n => ?_, fun x => by rw [locked_snoc]; exact h2 x,
        fun x => by rw [ref_snoc]; exact h3 x⟩
      have := hs n
      rw [maps_snoc, unmaps_snoc, h1 n]
      omega
  | nsAccess =>
    simp only [step] at h
    split at h
    case isFalse => cases h
    case isTrue hc =>
      cases h
      exact ⟨fun n => by rw [maps_snoc, unmaps_snoc]; exact h1 n,
        fun x => by rw [locked_snoc]; exact h2 x, fun x => by rw [ref_snoc]; exact h3 x⟩

theorem agrees_run {s : St} {v : List Ev} (ha : Agrees s v) :
    ∀ (w : List Ev) (s' : St), run s w = some s' → Agrees s' (v ++ w) := by
  intro w
  induction w generalizing s v with
  | nil => intro s' h; cases h; simpa using ha
  | cons e w ih =>
    intro s' h
    simp only [run, Option.bind_eq_some_iff] at h
    obtain ⟨s1, h1, h2⟩ := h
    have := ih (agrees_step ha h1) s' h2
    simpa using this

theorem agrees_empty : Agrees .empty [] :=
  ⟨fun n => by simp [maps, unmaps, St.empty], fun t => rfl, fun t => rfl⟩

/-! ### Slots also for RMI_REC_CREATE as written

Its locks are not balanced, so its slots are checked on their own. -/

def isSlotEv : Ev → Bool
  | .map _ _ | .unmap _ | .nsAccess => true
  | _ => false

/-- The skeleton without its lock operations. -/
def slotPart : Prog → Prog
  | .nop => .nop
  | .ev e => if isSlotEv e then .ev e else .nop
  | .seq p q => .seq (slotPart p) (slotPart q)
  | .alt p q => .alt (slotPart p) (slotPart q)
  | .star p => .star (slotPart p)

theorem lang_slotPart {p : Prog} {w : List Ev} (h : Lang p w) :
    Lang (slotPart p) (w.filter isSlotEv) := by
  induction h with
  | nop => exact .nop
  | ev e =>
    simp only [slotPart]
    by_cases he : isSlotEv e = true
    · rw [if_pos he]; simp only [List.filter_cons, he, if_true, List.filter_nil]; exact .ev e
    · rw [if_neg he]; simp only [List.filter_cons, he]; exact .nop
  | seq _ _ h1 h2 => rw [List.filter_append]; exact .seq h1 h2
  | altl _ h => exact .altl h
  | altr _ h => exact .altr h
  | starNil => exact .starNil
  | starCons _ _ h1 h2 => rw [List.filter_append]; exact .starCons h1 h2

/-- Nothing mapped, every granule protected. -/
def covered : St := ⟨[], [], [.rd, .recg, .rec2, .tbl, .dat, .llt, .nxt, .aux, .gran], []⟩

theorem recCreate_slots : post (slotPart recCreate) covered = some [covered] := by
  decide +kernel

theorem maps_filter (n : Nat) (w : List Ev) : maps n (w.filter isSlotEv) = maps n w := by
  unfold maps
  rw [List.countP_filter]
  congr 1
  funext e
  cases e <;> simp [isSlotEv]

theorem unmaps_filter (n : Nat) (w : List Ev) : unmaps n (w.filter isSlotEv) = unmaps n w := by
  unfold unmaps
  rw [List.countP_filter]
  congr 1
  funext e
  cases e <;> simp [isSlotEv]

/-- The slots along a run that starts with none mapped. -/
theorem slots_run (s : St) (hs : s.slots = []) :
    ∀ (v : List Ev) (s' : St), run s v = some s' →
      ∀ n, maps n v = unmaps n v + (if s'.slots.contains n then 1 else 0) := by
  suffices H : ∀ (v : List Ev) (s s' : St), run s v = some s' → ∀ n,
      maps n v + (if s.slots.contains n then 1 else 0) =
        unmaps n v + (if s'.slots.contains n then 1 else 0) by
    intro v s' h n
    have := H v s s' h n
    rw [hs] at this
    simpa using this
  intro v
  induction v with
  | nil => intro s s' h n; cases h; simp [maps, unmaps]
  | cons e v ih =>
    intro s s' h n
    simp only [run, Option.bind_eq_some_iff] at h
    obtain ⟨s1, h1, h2⟩ := h
    have i1 := ih s1 s' h2 n
    have i2 := slots_step h1 n
    have i3 := maps_snoc n [] e
    have i4 := unmaps_snoc n [] e
    have i5 : maps n (e :: v) = maps n [e] + maps n v := by
      unfold maps; rw [← List.countP_append]; rfl
    have i6 : unmaps n (e :: v) = unmaps n [e] + unmaps n v := by
      unfold unmaps; rw [← List.countP_append]; rfl
    have z1 : maps n [] = 0 := rfl
    have z2 : unmaps n [] = 0 := rfl
    rw [List.nil_append] at i3 i4
    omega

/-- Every prefix of a run is a run. -/
theorem run_prefix {s s' : St} {v u : List Ev} (h : run s (v ++ u) = some s') :
    ∃ s1, run s v = some s1 ∧ run s1 u = some s' := by
  rw [run_append] at h
  simpa [Option.bind_eq_some_iff] using h

theorem filter_prefix (f : Ev → Bool) (v u : List Ev) (w : List Ev) (h : w = v ++ u) :
    w.filter f = v.filter f ++ u.filter f := by rw [h, List.filter_append]

/-- A command of the monitor, RMI_REC_CREATE as written included. -/
def IsCommand (p : Prog) : Prop := p = recCreate ∨ p ∈ commands

theorem command_slots (p : Prog) (hp : IsCommand p) (w : List Ev) (hw : Lang p w) :
    ∃ s : St, s.slots = [] ∧ run s (w.filter isSlotEv) = some s ∨
      run .empty w = some .empty := by
  rcases hp with rfl | hp
  · obtain ⟨s', hs', hr⟩ := post_sound _ _ (lang_slotPart hw) covered _ recCreate_slots
    rw [List.mem_singleton] at hs'
    subst hs'
    exact ⟨covered, Or.inl ⟨rfl, hr⟩⟩
  · exact ⟨covered, Or.inr (balanced_sound p (commands_balanced p hp) w hw)⟩

/-- C47: on every path of every command, at every moment, each slot is either unmapped or
mapped once, and at the end it is unmapped. -/
theorem C47_slots_balanced (p : Prog) (hp : IsCommand p) (w : List Ev) (hw : Lang p w) (n : Nat) :
    (∀ v u, w = v ++ u → maps n v = unmaps n v ∨ maps n v = unmaps n v + 1) ∧
    maps n w = unmaps n w := by
  obtain ⟨s, ⟨hs, hr⟩ | hr⟩ := command_slots p hp w hw
  · constructor
    · intro v u he
      rw [filter_prefix _ v u w he] at hr
      obtain ⟨s1, h1, _⟩ := run_prefix hr
      have := slots_run s hs _ _ h1 n
      rw [maps_filter, unmaps_filter] at this
      rw [this]; split <;> simp
    · have := slots_run s hs _ _ hr n
      rw [maps_filter, unmaps_filter, hs] at this
      simpa using this
  · constructor
    · intro v u he
      rw [he] at hr
      obtain ⟨s1, h1, _⟩ := run_prefix hr
      have := slots_run _ rfl _ _ h1 n
      rw [this]; split <;> simp
    · have := slots_run _ rfl _ _ hr n
      simpa [St.empty] using this

/-- C47: whenever a command accesses Non-secure memory, the slot for it is free. -/
theorem C47_ns_slot_free (p : Prog) (hp : IsCommand p) (w v u : List Ev) (hw : Lang p w)
    (he : w = v ++ .nsAccess :: u) : maps slotNs v = unmaps slotNs v := by
  obtain ⟨s, ⟨hs, hr⟩ | hr⟩ := command_slots p hp w hw
  · rw [filter_prefix _ v _ w he] at hr
    obtain ⟨s1, h1, h2⟩ := run_prefix hr
    have := slots_run s hs _ _ h1 slotNs
    rw [maps_filter, unmaps_filter] at this
    rw [List.filter_cons, if_pos (show isSlotEv .nsAccess = true from rfl)] at h2
    simp only [run, step, Option.bind_eq_some_iff] at h2
    obtain ⟨s2, h3, _⟩ := h2
    split at h3
    case isFalse => cases h3
    case isTrue hc => rw [this, if_neg hc]; rfl
  · rw [he] at hr
    obtain ⟨s1, h1, h2⟩ := run_prefix hr
    have := slots_run _ rfl _ _ h1 slotNs
    simp only [run, step, Option.bind_eq_some_iff] at h2
    obtain ⟨s2, h3, _⟩ := h2
    split at h3
    case isFalse => cases h3
    case isTrue hc => rw [this, if_neg hc]; rfl

/-- All operations that occur in a skeleton satisfy `f`. -/
def allEv (f : Ev → Bool) : Prog → Bool
  | .nop => true
  | .ev e => f e
  | .seq p q | .alt p q => allEv f p && allEv f q
  | .star p => allEv f p

theorem allEv_sound (f : Ev → Bool) {p : Prog} {w : List Ev} (h : Lang p w)
    (hf : allEv f p = true) : ∀ e ∈ w, f e = true := by
  induction h with
  | nop => intro e he; cases he
  | ev e => intro e' he; rw [List.mem_singleton] at he; subst he; exact hf
  | seq _ _ h1 h2 =>
    simp only [allEv, Bool.and_eq_true] at hf
    intro e he
    rcases List.mem_append.1 he with he | he
    · exact h1 hf.1 e he
    · exact h2 hf.2 e he
  | altl _ h => simp only [allEv, Bool.and_eq_true] at hf; exact h hf.1
  | altr _ h => simp only [allEv, Bool.and_eq_true] at hf; exact h hf.2
  | starNil => intro e he; cases he
  | starCons _ _ h1 h2 =>
    intro e he
    rcases List.mem_append.1 he with he | he
    · exact h1 hf e he
    · exact h2 hf e he

/-- A realm slot that exists. -/
def slotInRange : Ev → Bool
  | .map n _ => decide (slotNs < n ∧ n < nrSlots)
  | _ => true

theorem commands_in_range : ∀ p ∈ recCreate :: commands, allEv slotInRange p = true := by
  decide +kernel

/-- C47: granules are only mapped through existing slots other than the Non-secure one, so
`buffer_granule_map` never fails its assertion and Realm data never goes through the
Non-secure slot. -/
theorem C47_slot_numbers (p : Prog) (hp : IsCommand p) (w : List Ev) (hw : Lang p w)
    (n : Nat) (t : Tag) (h : .map n t ∈ w) : 0 < n ∧ n < 108 := by
  have hc : p ∈ recCreate :: commands := by
    rcases hp with rfl | hp
    · exact List.mem_cons_self
    · exact List.mem_cons_of_mem _ hp
  have := allEv_sound _ hw (commands_in_range p hc) _ h
  exact of_decide_eq_true this

/-! ### C58: locks and references -/

/-- C58: every path of every command (RMI_REC_CREATE corrected, see
`C40_rec_create_unlocks_unheld`) ends with no lock and no reference held; it never releases
a lock it does not hold, never takes one twice and never drops a reference it does not
have. -/
theorem C58_all_released_partial (p : Prog) (hp : p ∈ commands) (w : List Ev) (hw : Lang p w) (t : Tag) :
    lockedAfter w t = false ∧ refAfter w t = false ∧
    (∀ v u, w = v ++ .rel t :: u → lockedAfter v t = true) ∧
    (∀ v u h, w = v ++ .acq t h :: u → lockedAfter v t = false) ∧
    (∀ v u, w = v ++ .put t :: u → refAfter v t = true) := by
  have hr := balanced_sound p (commands_balanced p hp) w hw
  have ha := agrees_run agrees_empty w _ hr
  rw [List.nil_append] at ha
  refine ⟨ha.locks t, ha.refs t, ?_, ?_, ?_⟩
  · intro v u he
    rw [he] at hr
    obtain ⟨s1, h1, h2⟩ := run_prefix hr
    have ha := agrees_run agrees_empty v _ h1
    simp only [run, step, Option.bind_eq_some_iff] at h2
    obtain ⟨s2, h3, _⟩ := h2
    split at h3
    case isFalse => cases h3
    case isTrue hc => rw [← List.nil_append v, ha.locks t]; exact hc
  · intro v u h he
    rw [he] at hr
    obtain ⟨s1, h1, h2⟩ := run_prefix hr
    have ha := agrees_run agrees_empty v _ h1
    simp only [run, step, Option.bind_eq_some_iff] at h2
    obtain ⟨s2, h3, _⟩ := h2
    split at h3
    case isFalse => cases h3
    case isTrue hc => rw [← List.nil_append v, ha.locks t]; simpa using hc.2.1
  · intro v u he
    rw [he] at hr
    obtain ⟨s1, h1, h2⟩ := run_prefix hr
    have ha := agrees_run agrees_empty v _ h1
    simp only [run, step, Option.bind_eq_some_iff] at h2
    obtain ⟨s2, h3, _⟩ := h2
    split at h3
    case isFalse => cases h3
    case isTrue hc => rw [← List.nil_append v, ha.refs t]; exact hc

/-- C58: the state of a granule is changed only while its lock is held. -/
theorem C58_state_change_locked_partial (p : Prog) (hp : p ∈ commands) (w v u : List Ev)
    (hw : Lang p w) (t : Tag) (he : w = v ++ .trans t :: u) : lockedAfter v t = true := by
  have hr := balanced_sound p (commands_balanced p hp) w hw
  rw [he] at hr
  obtain ⟨s1, h1, h2⟩ := run_prefix hr
  have ha := agrees_run agrees_empty v _ h1
  simp only [run, step, Option.bind_eq_some_iff] at h2
  obtain ⟨s2, h3, _⟩ := h2
  split at h3
  case isFalse => cases h3
  case isTrue hc => rw [← List.nil_append v, ha.locks t]; exact hc

/-- C58: the contents of a granule are mapped only by a CPU that holds the granule's lock or
a reference to it (or to the REC that owns it). -/
theorem C58_map_protected_partial (p : Prog) (hp : p ∈ commands) (w v u : List Ev)
    (hw : Lang p w) (n : Nat) (t : Tag) (he : w = v ++ .map n t :: u) :
    lockedAfter v t = true ∨ refAfter v t = true := by
  have hr := balanced_sound p (commands_balanced p hp) w hw
  rw [he] at hr
  obtain ⟨s1, h1, h2⟩ := run_prefix hr
  have ha := agrees_run agrees_empty v _ h1
  simp only [run, step, Option.bind_eq_some_iff] at h2
  obtain ⟨s2, h3, _⟩ := h2
  split at h3
  case isFalse => cases h3
  case isTrue hc => rw [← List.nil_append v, ha.locks t, ha.refs t]; exact hc.2

/-- Not vacuous: RMI_GRANULE_DELEGATE has a trace that locks, changes, maps and unmaps. -/
example : Lang granuleDelegate
    [.acq .gran .first, .trans .gran, .map 1 .gran, .unmap 1, .rel .gran] :=
  .altr (.seq (v := [.acq .gran .first]) (.ev _)
    (.seq (v := [.trans .gran, .map 1 .gran, .unmap 1])
      (.altr (.seq (v := [.trans .gran]) (.ev _) (.seq (v := [.map 1 .gran]) (.ev _) (.ev _))))
      (.ev _)))

example : IsCommand granuleDelegate := Or.inr (by simp [commands])

end Verif.Conc
