import Verif.Xlat.Map

/-
Mapping one region, continued: the recursion over the tables.
-/
namespace Verif.Xlat

/-- Mapping a table below an entry is mapping the entry. -/
theorem lift_good {c : Cpu} {mm : Region} {s s' : Tabs} {loc : Nat → Nat × Nat} (wf : WF c s loc)
    {d t i B ct : Nat} (ht : t < s.next) (hloc : loc t = (d + 1, B)) (hi : i < 512)
    (htab : IsTable (s.mem t i)) (hs : s.sub c (s.mem t i) = some ct)
    (hcl : loc ct = (d, B + i * bsz (d + 1)))
    (h : Good c mm s loc d ct (B + i * bsz (d + 1)) (B + i * bsz (d + 1) + bsz (d + 1)) s') :
    Good c mm s loc (d + 1) t (B + i * bsz (d + 1)) (B + i * bsz (d + 1) + bsz (d + 1)) s' := by
  obtain ⟨loc', wf', E, P⟩ := h
  have hal := wf.align t ht
  rw [hloc, bsz_succ] at hal
  have hb := bsz_pos (d + 1)
  refine ⟨loc', wf', E.lift hcl (by omega), ?_⟩
  intro va h1 h2
  have hidx := index_of hal hi h1 h2
  have hne : ct ≠ t := by
    rintro rfl
    have : (loc ct).1 = d + 1 := by rw [hloc]
    rw [hcl] at this
    dsimp only at this
    omega
  have hmem : s'.mem t i = s.mem t i := by
    rcases E.mem t i ht hi with h | h | h
    · exact h
    · exact absurd h.1.symm hne
    · rw [hloc] at h
      have := h.1
      dsimp only at this
      omega
  have l1 : look c s (d + 1) t va = look c s d ct va := look_table hidx htab hs
  have l2 : look c s' (d + 1) t va = look c s' d ct va :=
    look_table hidx (by rw [hmem]; exact htab)
      (by rw [hmem, sub_congr E.addr E.num]; exact hs)
  rw [l1, l2]
  exact P va h1 h2

theorem except_bind_ok {ε α β : Type} (a : α) (f : α → Except ε β) :
    ((Except.ok a : Except ε α) >>= f) = f a := rfl

theorem except_bind_error {ε α β : Type} (e : ε) (f : α → Except ε β) :
    ((Except.error e : Except ε α) >>= f) = .error e := rfl

theorem ret_end {c : Cpu} {mm : Region} (hr : RegOk c mm) {V d : Nat} (hd : d ≤ 4)
    (h1 : mm.baseVa < V + bsz d) (h2 : V < mm.baseVa + mm.size) :
    (if min (mm.baseVa + mm.size) (V + bsz d) - 1 ≠ wsub (wadd V (bsz d)) 1 then
        some (min (mm.baseVa + mm.size) (V + bsz d) - 1) else none) =
      if mm.baseVa + mm.size < V + bsz d then some (mm.baseVa + mm.size - 1) else none := by
  have := hr.vaEnd; have := hr.pos; have := bsz_pos d
  rw [end_entry (by omega) hd]
  by_cases h : mm.baseVa + mm.size < V + bsz d
  · rw [if_pos h, if_pos (by omega)]
    congr 1; omega
  · rw [if_neg h, if_neg (by omega)]

/-- One turn of the loop. -/
theorem step_ok {c : Cpu} {mm : Region} (hr : RegOk c mm) {d : Nat} (hd : d ≤ 4)
    {into : Nat → Nat → Tabs → Except Err (Tabs × Nat)}
    (hsub : ∀ d', d = d' + 1 → SubOk c mm d' into)
    {s : Tabs} {loc : Nat → Nat × Nat} (wf : WF c s loc) (hp : Place c s) {t i B : Nat}
    (ht : t < s.next) (hloc : loc t = (d, B)) (hi : i < 512)
    (h1 : mm.baseVa < B + i * bsz d + bsz d) (h2 : B + i * bsz d < mm.baseVa + mm.size)
    (hfree : Free c mm s d t (B + i * bsz d) (B + i * bsz d + bsz d)) :
    entryStep c mm d into t i (B + i * bsz d) s = .error .noTable ∨
    ∃ s1, entryStep c mm d into t i (B + i * bsz d) s =
        .ok (s1, if mm.baseVa + mm.size < B + i * bsz d + bsz d then
          some (mm.baseVa + mm.size - 1) else none) ∧
      Good c mm s loc d t (B + i * bsz d) (B + i * bsz d + bsz d) s1 := by
  have hal := wf.align t ht
  rw [hloc, bsz_succ] at hal
  have hb := bsz_pos d
  have hpos := hr.pos
  have hVd : bsz d ∣ B + i * bsz d :=
    Nat.dvd_add (Nat.dvd_trans ⟨512, Nat.mul_comm _ _⟩ hal) ⟨i, Nat.mul_comm _ _⟩
  have hgen : ∀ V, V = B + i * bsz d → bsz d ∣ V := by rintro V rfl; exact hVd
  -- the entry is empty or leads to a table
  have hkind : s.mem t i = 0#64 ∨ (d ≠ 0 ∧ IsTable (s.mem t i)) := by
    by_cases hT : d ≠ 0 ∧ IsTable (s.mem t i)
    · exact Or.inr hT
    · refine Or.inl ?_
      have hva : B + i * bsz d ≤ max mm.baseVa (B + i * bsz d) ∧
          max mm.baseVa (B + i * bsz d) < B + i * bsz d + bsz d := by omega
      have hf := hfree (max mm.baseVa (B + i * bsz d)) hva.1 hva.2 ⟨by omega, by omega⟩
      rw [look_leaf (index_of hal hi hva.1 hva.2) (fun h0 hT' => hT ⟨h0, hT'⟩)] at hf
      exact hf
  rcases hkind with h0 | ⟨hd0, hT⟩
  · unfold entryStep
    simp only [h0, mask_zero]
    rcases action_zero (pa := wsub (wadd mm.basePa (B + i * bsz d)) mm.baseVa)
        hr hd hVd h1 h2 with ⟨ha, hc1, hc2, hc3⟩ | ⟨ha, hd0⟩
    · rw [ha, except_bind_ok, entry_pa hr hc1 (by omega)] at *
      simp only
      have hpa : (mm.basePa + (B + i * bsz d - mm.baseVa)) % bsz d = 0 := by
        by_cases hz : d = 0
        · subst hz
          have e : bsz 0 = 4096 := rfl
          have := hr.va; have := hr.pa
          rw [e] at hVd ⊢
          rw [e] at hc1
          omega
        · exact (hc3 hz).1
      obtain ⟨v, hv⟩ := xlatDesc_ok (c := c) hr.type (fun _ => hpa)
      rw [hv, except_bind_ok]
      have hb2 : d ≤ maxBlockDepth c := by
        by_cases hz : d = 0
        · rw [hz]; exact Nat.zero_le _
        · exact (hc3 hz).2
      refine Or.inr ⟨s.write t i v, ?_, step_write wf ht hloc hi h0 hc1 hc2 hb2 hv⟩
      rw [if_neg (by omega)]
      rfl
    · rw [ha, except_bind_ok]
      simp only
      by_cases hn : s.next < s.num
      · rw [if_pos hn]
        obtain ⟨d', rfl⟩ : ∃ d', d = d' + 1 := ⟨d - 1, by omega⟩
        have wf2 := wf.write_table hp ht hloc hi h0 hn
        have ln : (fun k => if k = s.next then (d', B + i * bsz (d' + 1)) else loc k) t =
            (d' + 1, B) := by simp only [if_neg (show ¬ t = s.next by omega), hloc]
        have lc : (fun k => if k = s.next then (d', B + i * bsz (d' + 1)) else loc k) s.next =
            (d', B + i * bsz (d' + 1)) := by simp only [if_true]
        have lo : ∀ k, k < s.next →
            (fun k => if k = s.next then (d', B + i * bsz (d' + 1)) else loc k) k = loc k := by
          intro k hk; simp only [if_neg (show ¬ k = s.next by omega)]
        generalize hloc2 :
          (fun k => if k = s.next then (d', B + i * bsz (d' + 1)) else loc k) = loc2 at wf2 ln lc lo
        have m2 : ∀ t' i', (({ s with next := s.next + 1 } : Tabs).write t i
            (TABLE_DESC ||| BitVec.ofNat 64 (s.addrOf s.next))).mem t' i' =
              if t' = t ∧ i' = i then TABLE_DESC ||| BitVec.ofNat 64 (s.addrOf s.next)
              else s.mem t' i' := fun _ _ => rfl
        have p2 : Place c (({ s with next := s.next + 1 } : Tabs).write t i
            (TABLE_DESC ||| BitVec.ofNat 64 (s.addrOf s.next))) := ⟨hp.align, hp.fits⟩
        have n2 : (({ s with next := s.next + 1 } : Tabs).write t i
            (TABLE_DESC ||| BitVec.ofNat 64 (s.addrOf s.next))).next = s.next + 1 := rfl
        have a2 : (({ s with next := s.next + 1 } : Tabs).write t i
            (TABLE_DESC ||| BitVec.ofNat 64 (s.addrOf s.next))).addr = s.addr := rfl
        have k2 : (({ s with next := s.next + 1 } : Tabs).write t i
            (TABLE_DESC ||| BitVec.ofNat 64 (s.addrOf s.next))).num = s.num := rfl
        generalize hs2 : (({ s with next := s.next + 1 } : Tabs).write t i
            (TABLE_DESC ||| BitVec.ofNat 64 (s.addrOf s.next))) = s2 at wf2 m2 p2 n2 a2 k2 ⊢
        have e2 : s2.mem t i = TABLE_DESC ||| BitVec.ofNat 64 (s.addrOf s.next) := by
          rw [m2, if_pos ⟨rfl, rfl⟩]
        have z2 : ∀ j, j < 512 → s2.mem s.next j = 0#64 := by
          intro j hj
          rw [m2, if_neg (by omega)]
          exact wf.fresh s.next j (Nat.le_refl _) hn hj
        have hsub2 : s2.sub c (s2.mem t i) = some s.next := by
          rw [e2, sub_congr a2 k2]; exact sub_table hp hn
        have hT2 : IsTable (s2.mem t i) := by rw [e2]; exact isTable_desc _
        rcases hsub d' rfl s2 loc2 s.next (B + i * bsz (d' + 1)) wf2 p2 (by omega) lc h1 h2
            (fun va _ _ _ => by rw [look_zero z2]) with hI | ⟨s3, hI, hG⟩
        · rw [hI]; exact Or.inl rfl
        · rw [hI, except_bind_ok]
          refine Or.inr ⟨s3, ?_, ?_⟩
          · simp only [ret_end hr hd h1 h2]
            rfl
          · obtain ⟨loc3, wf3, E3, P3⟩ :=
              lift_good wf2 (by omega) ln hi hT2 hsub2 lc hG
            refine ⟨loc3, wf3, ?_, ?_⟩
            · have E2 : Ext s loc s2 loc2 (B + i * bsz (d' + 1))
                  (B + i * bsz (d' + 1) + bsz (d' + 1)) (d' + 1) t := by
                refine ⟨a2, k2, by omega, lo, ?_, ?_⟩
                · intro t' i' _ _
                  rw [m2]
                  by_cases he : t' = t ∧ i' = i
                  · obtain ⟨rfl, rfl⟩ := he
                    refine Or.inr (Or.inl ⟨rfl, ?_⟩)
                    rw [hloc]
                    exact ⟨Nat.le_refl _, by dsimp only; omega⟩
                  · rw [if_neg he]; exact Or.inl rfl
                · intro t' h3 h4
                  have : t' = s.next := by omega
                  rw [this, lc]
                  exact ⟨Nat.lt_succ_self _, Nat.le_refl _, by dsimp only; omega⟩
              exact E2.trans ht E3 (Nat.le_refl _) (Nat.le_refl _) (Nat.le_refl _)
            · intro va h3 h4
              have hidx := index_of hal hi h3 h4
              refine ⟨(P3 va h3 h4).1, fun hn' => ?_⟩
              refine Same.trans ?_ ((P3 va h3 h4).2 hn')
              refine Or.inr ⟨?_, ?_⟩
              · rw [look_leaf hidx (fun _ => by rw [h0]; exact not_isTable_zero), h0]
              · rw [look_table hidx hT2 hsub2, look_zero z2]
      · rw [if_neg hn]; exact Or.inl rfl
  · obtain ⟨d', rfl⟩ : ∃ d', d = d' + 1 := ⟨d - 1, by omega⟩
    obtain ⟨ct, hs, hct, hcl⟩ := wf.child t i d' ht hi (by rw [hloc]) hT
    rw [hloc] at hcl
    unfold entryStep
    have hm : s.mem t i &&& DESC_MASK = TABLE_DESC := hT
    simp only [hm]
    rw [action_table hr hd hd0 h1 h2, except_bind_ok]
    simp only [hs]
    have hf : Free c mm s d' ct (B + i * bsz (d' + 1))
        (B + i * bsz (d' + 1) + bsz (d' + 1)) := by
      intro va h3 h4 h5
      rw [← look_table (index_of hal hi h3 h4) hT hs]
      exact hfree va h3 h4 h5
    rcases hsub d' rfl s loc ct (B + i * bsz (d' + 1)) wf hp hct hcl h1 h2 hf with
      hI | ⟨s3, hI, hG⟩
    · rw [hI]; exact Or.inl rfl
    · rw [hI, except_bind_ok]
      refine Or.inr ⟨s3, ?_, lift_good wf ht hloc hi hT hs hcl hG⟩
      simp only [ret_end hr hd h1 h2]
      rfl

/-! ### One table -/

/-- Two windows side by side. -/
theorem Good.append {c : Cpu} {mm : Region} {s s1 s2 : Tabs} {loc : Nat → Nat × Nat}
    {d t B lo mid hi : Nat} (wf : WF c s loc) (ht : t < s.next) (hloc : loc t = (d, B))
    (h1 : lo ≤ mid) (h2 : mid ≤ hi) (hB : B ≤ lo) (hB' : hi ≤ B + bsz (d + 1))
    (dlo : bsz d ∣ lo) (dmid : bsz d ∣ mid) (dhi : bsz d ∣ hi)
    (A : Good c mm s loc d t lo mid s1)
    (next : ∀ loc1, WF c s1 loc1 → t < s1.next → loc1 t = (d, B) →
      (∀ va, mid ≤ va → va < hi → look c s1 d t va = look c s d t va) →
      Good c mm s1 loc1 d t mid hi s2) : Good c mm s loc d t lo hi s2 := by
  obtain ⟨loc1, wf1, E1, P1⟩ := A
  have ht1 : t < s1.next := Nat.lt_of_lt_of_le ht E1.next
  have hl1 : loc1 t = (d, B) := (E1.locs t ht).trans hloc
  have f1 : ∀ va, mid ≤ va → va < hi → look c s1 d t va = look c s d t va := by
    intro va h3 h4
    refine look_frame wf E1 ht (by rw [hloc]) dlo dmid d t va ht (by rw [hloc]) ?_ ?_ (by omega)
    · rw [hloc]; dsimp only; omega
    · rw [hloc]; dsimp only; omega
  obtain ⟨loc2, wf2, E2, P2⟩ := next loc1 wf1 ht1 hl1 f1
  refine ⟨loc2, wf2, E1.trans ht E2 h1 h2 (Nat.le_refl _), ?_⟩
  intro va h3 h4
  by_cases hm : va < mid
  · have f2 : look c s2 d t va = look c s1 d t va := by
      refine look_frame wf1 E2 ht1 (by rw [hl1]) dmid dhi d t va ht1 (by rw [hl1]) ?_ ?_ (by omega)
      · rw [hl1]; dsimp only; omega
      · rw [hl1]; dsimp only; omega
    rw [f2]
    exact P1 va h3 hm
  · rw [← f1 va (by omega) h4]
    exact P2 va (by omega) h4

/-- Nothing to do behind the end of the region. -/
theorem Good.none {c : Cpu} {mm : Region} {s : Tabs} {loc : Nat → Nat × Nat} {d t lo hi : Nat}
    (wf : WF c s loc) (h : mm.baseVa + mm.size ≤ lo) : Good c mm s loc d t lo hi s :=
  ⟨loc, wf, Ext.refl _ _ _ _ _ _, fun va h1 _ =>
    ⟨fun hin => absurd hin.2 (by omega), fun _ => Or.inl rfl⟩⟩

theorem loop_ok {c : Cpu} {mm : Region} (hr : RegOk c mm) {d : Nat} (hd : d ≤ 4)
    {into : Nat → Nat → Tabs → Except Err (Tabs × Nat)}
    (hsub : ∀ d', d = d' + 1 → SubOk c mm d' into) {t B : Nat} :
    ∀ n i s loc, WF c s loc → Place c s → t < s.next → loc t = (d, B) → i < 512 → i + n ≤ 512 →
      min (mm.baseVa + mm.size) (B + bsz (d + 1)) ≤ B + (i + n) * bsz d →
      mm.baseVa < B + i * bsz d + bsz d → B + i * bsz d < mm.baseVa + mm.size →
      Free c mm s d t (B + i * bsz d) (B + bsz (d + 1)) →
      entryLoop c mm d into t n i (B + i * bsz d) s = .error .noTable ∨
      ∃ s', entryLoop c mm d into t n i (B + i * bsz d) s =
          .ok (s', min (mm.baseVa + mm.size) (B + bsz (d + 1)) - 1) ∧
        Good c mm s loc d t (B + i * bsz d) (B + bsz (d + 1)) s' := by
  intro n
  induction n with
  | zero =>
    intro i s loc wf hp ht hloc hi hin hend h1 h2 hfree
    exfalso
    have hb := bsz_pos d
    rw [bsz_succ] at hend
    have : i * bsz d + bsz d ≤ 512 * bsz d := by
      calc i * bsz d + bsz d = (i + 1) * bsz d := by ring
        _ ≤ 512 * bsz d := Nat.mul_le_mul_right _ hi
    rw [Nat.add_zero] at hend
    omega
  | succ n ih =>
    intro i s loc wf hp ht hloc hi hin hend h1 h2 hfree
    have hb := bsz_pos d
    have hve := hr.vaEnd
    have hpos := hr.pos
    have hbb := bsz_bound hd
    have hal := wf.align t ht
    rw [hloc] at hal
    have hBd : bsz d ∣ B := Nat.dvd_trans (bsz_dvd (Nat.le_succ _)) hal
    have hle : i * bsz d + bsz d ≤ bsz (d + 1) := by
      rw [bsz_succ]
      calc i * bsz d + bsz d = (i + 1) * bsz d := by ring
        _ ≤ 512 * bsz d := Nat.mul_le_mul_right _ hi
    have hVd : bsz d ∣ B + i * bsz d := Nat.dvd_add hBd ⟨i, Nat.mul_comm _ _⟩
    have hV1d : bsz d ∣ B + i * bsz d + bsz d := Nat.dvd_add hVd (Nat.dvd_refl _)
    have hhd : bsz d ∣ B + bsz (d + 1) := Nat.dvd_add hBd (bsz_dvd (Nat.le_succ _))
    have hf1 : Free c mm s d t (B + i * bsz d) (B + i * bsz d + bsz d) :=
      fun va h3 h4 h5 => hfree va h3 (by omega) h5
    unfold entryLoop
    rcases step_ok hr hd hsub wf hp ht hloc hi h1 h2 hf1 with hS | ⟨s1, hS, hG⟩
    · rw [hS]; exact Or.inl rfl
    · rw [hS, except_bind_ok]
      by_cases hret : mm.baseVa + mm.size < B + i * bsz d + bsz d
      · simp only [if_pos hret]
        refine Or.inr ⟨s1, ?_, ?_⟩
        · rw [show min (mm.baseVa + mm.size) (B + bsz (d + 1)) = mm.baseVa + mm.size by omega]
          rfl
        · exact hG.append wf ht hloc (by omega) (by omega) (by omega) (Nat.le_refl _) hVd hV1d hhd
            (fun loc1 wf1 _ _ _ => Good.none wf1 (by omega))
      · simp only [if_neg hret]
        rw [end_va hr, wadd_eq (a := B + i * bsz d) (by omega)]
        by_cases hstop : mm.baseVa + mm.size - 1 ≤ B + i * bsz d + bsz d
        · rw [if_pos hstop]
          have hpg : mm.baseVa + mm.size = B + i * bsz d + bsz d := by
            have a1 : 4096 ∣ B + i * bsz d + bsz d := Nat.dvd_trans (page_dvd_bsz d) hV1d
            have a2 := hr.va; have a3 := hr.size
            omega
          refine Or.inr ⟨s1, ?_, ?_⟩
          · rw [wsub_eq (by omega) (by omega),
              show min (mm.baseVa + mm.size) (B + bsz (d + 1)) = B + i * bsz d + bsz d by omega]
            rfl
          · exact hG.append wf ht hloc (by omega) (by omega) (by omega) (Nat.le_refl _)
              hVd hV1d hhd (fun loc1 wf1 _ _ _ => Good.none wf1 (by omega))
        · rw [if_neg hstop]
          by_cases hlast : i + 1 = 512
          · have hn : n = 0 := by omega
            subst hn
            have hfull : B + i * bsz d + bsz d = B + bsz (d + 1) := by
              rw [bsz_succ, ← hlast]; ring
            refine Or.inr ⟨s1, ?_, ?_⟩
            · unfold entryLoop
              rw [wsub_eq (by omega) (by omega),
                show min (mm.baseVa + mm.size) (B + bsz (d + 1)) = B + i * bsz d + bsz d by omega]
            · rw [← hfull]; exact hG
          · have hV1 : B + i * bsz d + bsz d = B + (i + 1) * bsz d := by ring
            obtain ⟨loc1, wf1, E1, P1⟩ := hG
            have ht1 : t < s1.next := Nat.lt_of_lt_of_le ht E1.next
            have hl1 : loc1 t = (d, B) := (E1.locs t ht).trans hloc
            have hp1 : Place c s1 :=
              ⟨by rw [E1.addr]; exact hp.align, by rw [E1.addr, E1.num]; exact hp.fits⟩
            have f1 : ∀ va, B + i * bsz d + bsz d ≤ va → va < B + bsz (d + 1) →
                look c s1 d t va = look c s d t va := by
              intro va h3 h4
              refine look_frame wf E1 ht (by rw [hloc]) hVd hV1d d t va ht (by rw [hloc]) ?_ ?_
                (by omega)
              · rw [hloc]; dsimp only; omega
              · rw [hloc]; dsimp only; omega
            have hfree1 : Free c mm s1 d t (B + (i + 1) * bsz d) (B + bsz (d + 1)) := by
              intro va h3 h4 h5
              rw [f1 va (by omega) h4]
              exact hfree va (by omega) h4 h5
            have hend1 : min (mm.baseVa + mm.size) (B + bsz (d + 1)) ≤
                B + (i + 1 + n) * bsz d := by
              rw [show i + 1 + n = i + (n + 1) by omega]; exact hend
            rw [hV1]
            rcases ih (i + 1) s1 loc1 wf1 hp1 ht1 hl1 (by omega) (by omega) hend1 (by omega)
                (by omega) hfree1 with hR | ⟨s2, hR, hG2⟩
            · exact Or.inl hR
            · refine Or.inr ⟨s2, hR, ?_⟩
              have hG1 : Good c mm s loc d t (B + i * bsz d) (B + i * bsz d + bsz d) s1 :=
                ⟨loc1, wf1, E1, P1⟩
              obtain ⟨loc2, wf2, E2, P2⟩ := hG2
              rw [← hV1] at E2 P2
              refine ⟨loc2, wf2, E1.trans ht E2 (by omega) (by omega) (Nat.le_refl _), ?_⟩
              intro va h3 h4
              by_cases hm : va < B + i * bsz d + bsz d
              · have f2 : look c s2 d t va = look c s1 d t va := by
                  refine look_frame wf1 E2 ht1 (by rw [hl1]) hV1d hhd d t va ht1 (by rw [hl1]) ?_ ?_
                    (by omega)
                  · rw [hl1]; dsimp only; omega
                  · rw [hl1]; dsimp only; omega
                rw [f2]
                exact P1 va h3 hm
              · rw [← f1 va (by omega) h4]
                exact P2 va (by omega) h4

/-! ### The recursion -/

/-- Nothing to do before the start of the region. -/
theorem Good.before {c : Cpu} {mm : Region} {s : Tabs} {loc : Nat → Nat × Nat} {d t lo hi : Nat}
    (wf : WF c s loc) (h : hi ≤ mm.baseVa) : Good c mm s loc d t lo hi s :=
  ⟨loc, wf, Ext.refl _ _ _ _ _ _, fun va _ h2 =>
    ⟨fun hin => absurd hin.1 (by omega), fun _ => Or.inl rfl⟩⟩

/-- Where the loop over a table starts. -/
theorem start_index {mm : Region} {d B : Nat} (hB : bsz d ∣ B) (h52 : mm.baseVa < 2 ^ 52)
    (hB52 : B < 2 ^ 52) (h1 : mm.baseVa < B + bsz (d + 1)) :
    ∃ i, i < 512 ∧ startVa mm B d = B + i * bsz d ∧
      wsub (startVa mm B d) B / bsz d = i ∧ mm.baseVa < B + i * bsz d + bsz d ∧
      (B + i * bsz d ≤ mm.baseVa ∨ i = 0) := by
  have hb := bsz_pos d
  unfold startVa
  by_cases h : mm.baseVa > B
  · rw [if_pos h]
    obtain ⟨k, rfl⟩ := hB
    have hk : k ≤ mm.baseVa / bsz d := by
      rw [Nat.le_div_iff_mul_le hb, Nat.mul_comm]; omega
    obtain ⟨i, hi⟩ := Nat.exists_eq_add_of_le hk
    have hva : mm.baseVa / bsz d * bsz d = bsz d * k + i * bsz d := by rw [hi]; ring
    have hdm := Nat.div_add_mod mm.baseVa (bsz d)
    have hml := Nat.mod_lt mm.baseVa hb
    rw [Nat.mul_comm, hva] at hdm
    refine ⟨i, ?_, hva, ?_, by omega, Or.inl (by omega)⟩
    · rw [bsz_succ] at h1
      have : i * bsz d < 512 * bsz d := by omega
      exact Nat.lt_of_mul_lt_mul_right this
    · rw [hva, wsub_eq (by omega) (by omega), Nat.add_sub_cancel_left, Nat.mul_div_cancel _ hb]
  · rw [if_neg h]
    refine ⟨0, by decide, by omega, ?_, by omega, Or.inr rfl⟩
    rw [wsub_eq (by omega) (by omega), Nat.sub_self, Nat.zero_div]

theorem table_ok {c : Cpu} {mm : Region} (hr : RegOk c mm) {d : Nat} (hd : d ≤ 4)
    {into : Nat → Nat → Tabs → Except Err (Tabs × Nat)}
    (hsub : ∀ d', d = d' + 1 → SubOk c mm d' into) {s : Tabs} {loc : Nat → Nat × Nat}
    (wf : WF c s loc) (hp : Place c s) {t B entries : Nat} (ht : t < s.next)
    (hloc : loc t = (d, B)) (he : entries ≤ 512)
    (hend : min (mm.baseVa + mm.size) (B + bsz (d + 1)) ≤ B + entries * bsz d)
    (h1 : mm.baseVa < B + bsz (d + 1)) (h2 : B < mm.baseVa + mm.size)
    (hfree : Free c mm s d t B (B + bsz (d + 1))) :
    entryLoop c mm d into t (entries - wsub (startVa mm B d) B / bsz d)
        (wsub (startVa mm B d) B / bsz d) (startVa mm B d) s = .error .noTable ∨
    ∃ s', entryLoop c mm d into t (entries - wsub (startVa mm B d) B / bsz d)
        (wsub (startVa mm B d) B / bsz d) (startVa mm B d) s =
          .ok (s', min (mm.baseVa + mm.size) (B + bsz (d + 1)) - 1) ∧
      Good c mm s loc d t B (B + bsz (d + 1)) s' := by
  have hb := bsz_pos d
  have hve := hr.vaEnd
  have hpos := hr.pos
  have hal := wf.align t ht
  rw [hloc] at hal
  have hBd : bsz d ∣ B := Nat.dvd_trans (bsz_dvd (Nat.le_succ _)) hal
  obtain ⟨i, hi, e1, e2, e3, e4⟩ := start_index (mm := mm) hBd (by omega) (by omega) h1
  rw [e1] at e2 ⊢
  rw [e2]
  have hVlt : B + i * bsz d < min (mm.baseVa + mm.size) (B + bsz (d + 1)) := by
    have := bsz_pos (d + 1)
    rcases e4 with h | h
    · omega
    · rw [h, Nat.zero_mul]; omega
  have hie : i < entries := by
    have : i * bsz d < entries * bsz d := by omega
    exact Nat.lt_of_mul_lt_mul_right this
  have hfree' : Free c mm s d t (B + i * bsz d) (B + bsz (d + 1)) :=
    fun va h3 h4 h5 => hfree va (by omega) h4 h5
  have hend' : min (mm.baseVa + mm.size) (B + bsz (d + 1)) ≤
      B + (i + (entries - i)) * bsz d := by
    rw [show i + (entries - i) = entries by omega]; exact hend
  rcases loop_ok hr hd hsub (entries - i) i s loc wf hp ht hloc hi (by omega) hend' e3 (by omega)
      hfree' with h | ⟨s', h, hG⟩
  · exact Or.inl h
  · refine Or.inr ⟨s', h, ?_⟩
    rcases e4 with h4 | h4
    · exact (Good.before wf h4).append wf ht hloc (by omega) (by omega) (Nat.le_refl _)
        (Nat.le_refl _) hBd (Nat.dvd_add hBd ⟨i, Nat.mul_comm _ _⟩)
        (Nat.dvd_add hBd (bsz_dvd (Nat.le_succ _)))
        (fun loc1 wf1 ht1 hl1 _ => by
          have hfr : Free c mm s d t (B + i * bsz d) (B + bsz (d + 1)) := hfree'
          rcases loop_ok hr hd hsub (entries - i) i s loc1 wf1 hp ht1 hl1 hi (by omega) hend' e3
            (by omega) hfr with h' | ⟨s'', h', hG'⟩
          · rw [h] at h'; cases h'
          · rw [h] at h'
            have : s' = s'' := by simpa using h'
            rw [this]; exact hG')
    · subst h4
      rw [Nat.zero_mul, Nat.add_zero] at hG
      exact hG

/-- **Mapping a region into a table.**  The only way to fail is to run out of
tables. -/
theorem mapRegion_ok {c : Cpu} {mm : Region} (hr : RegOk c mm) :
    ∀ d, d ≤ 4 → ∀ entries s loc t B, WF c s loc → Place c s → t < s.next → loc t = (d, B) →
      entries ≤ 512 → min (mm.baseVa + mm.size) (B + bsz (d + 1)) ≤ B + entries * bsz d →
      mm.baseVa < B + bsz (d + 1) → B < mm.baseVa + mm.size →
      Free c mm s d t B (B + bsz (d + 1)) →
      mapRegion c mm d B t entries s = .error .noTable ∨
      ∃ s', mapRegion c mm d B t entries s =
          .ok (s', min (mm.baseVa + mm.size) (B + bsz (d + 1)) - 1) ∧
        Good c mm s loc d t B (B + bsz (d + 1)) s' := by
  intro d
  induction d with
  | zero =>
    intro hd entries s loc t B wf hp ht hloc he hend h1 h2 hf
    unfold mapRegion
    exact table_ok hr hd (fun d' h => absurd h (by omega)) wf hp ht hloc he hend h1 h2 hf
  | succ d ih =>
    intro hd entries s loc t B wf hp ht hloc he hend h1 h2 hf
    unfold mapRegion
    refine table_ok hr hd ?_ wf hp ht hloc he hend h1 h2 hf
    intro d' hd'
    obtain rfl : d = d' := by omega
    intro s loc t B wf hp ht hloc h1 h2 hf
    refine ih (by omega) TABLE_ENTRIES s loc t B wf hp ht hloc (by decide) ?_ h1 h2 hf
    rw [bsz_succ]
    show _ ≤ B + 512 * bsz d
    omega

end Verif.Xlat
