import Verif.Rmm.ViewEff

/-!
# Footprints: which granules an operation can change
-/

namespace Verif.Rmm

/-- The realm an operation is addressed to, or that performs it. -/
def Op.target (s : State) : Op → Option Nat
  | .rttCreate rd .. => some rd
  | .rttFold rd .. => some rd
  | .rttDestroy rd .. => some rd
  | .rttMapUnprotected rd .. => some rd
  | .rttUnmapUnprotected rd .. => some rd
  | .rttReadEntry rd .. => some rd
  | .dataCreateUnknown rd .. => some rd
  | .dataCreate rd .. => some rd
  | .dataDestroy rd .. => some rd
  | .rttInitRipas rd .. => some rd
  | .rttSetRipas rd .. => some rd
  | .realmActivate rd => some rd
  | .realmCreate rd .. => some rd
  | .realmDestroy rd => some rd
  | .recCreate rd .. => some rd
  | .recAuxCount rd => some rd
  | .recDestroy r => some (recOf s r).rd
  | .psciComplete c .. => some (recOf s c).rd
  | .recEnter r .. => some (recOf s r).rd
  | .recRun r .. => some (recOf s r).rd
  | .psciRequest r => some (recOf s r).rd
  | .rsiIpaStateSet r .. => some (recOf s r).rd
  | .psciSystemOff r => some (recOf s r).rd
  | .rsiExtend r .. => some (recOf s r).rd
  | .realmWrite r .. => some (recOf s r).rd
  | .auxWrite r .. => some (recOf s r).rd
  | .granuleDelegate _ => none
  | .granuleUndelegate _ => none
  | .hostWrite .. => none
  | .el3Move .. => none

/-- The granule belongs to realm `r`. -/
inductive Own (s : State) (ti : Nat → TabInfo) (di : Nat → Nat × Nat) (r x : Nat) : Prop
  | rd : x = r → s.st x = .rd → Own s ti di r x
  | rtt : s.st x = .rtt → (ti x).rd = r → Own s ti di r x
  | data : s.st x = .data → (di x).1 = r → Own s ti di r x
  | recd : s.st x = .recd → (recOf s x).rd = r → Own s ti di r x
  | aux (a : Nat) : s.st x = .recAux → s.st a = .recd → x ∈ (recOf s a).aux → (recOf s a).rd = r → Own s ti di r x

/-- The operation leaves the granule as it is. -/
def Kept (s s' : State) (x : Nat) : Prop := s'.st x = s.st x ∧ s'.mem x = s.mem x ∧ s'.rc x = s.rc x

section
variable {P : Plat} {s : State} {ti : Nat → TabInfo} {di : Nat → Nat × Nat} {rl : Nat → List Nat}

theorem Own.st {r x : Nat} (o : Own s ti di r x) : s.st x ≠ .ns ∧ s.st x ≠ .delegated := by
  cases o <;> simp_all

theorem Own.ne {r x y : Nat} (o : Own s ti di r x) (hy : s.st y = .ns ∨ s.st y = .delegated) : x ≠ y := by
  rintro rfl
  have := o.st
  tauto

theorem Own.unique (h : InvG P s ti di rl) {r r' x : Nat} (o : Own s ti di r x) (o' : Own s ti di r' x) : r = r' := by
  cases o with
  | rd h1 h2 => cases o' <;> simp_all
  | rtt h1 h2 => cases o' <;> simp_all
  | data h1 h2 => cases o' <;> simp_all
  | recd h1 h2 => cases o' <;> simp_all
  | aux a h1 h2 h3 h4 =>
    cases o' with
    | aux b k1 k2 k3 k4 =>
      have := h.auxDisj a b x h2 k2 h3 k3
      subst this
      rw [← h4, k4]
    | _ => simp_all

theorem Own.rd_live (h : InvG P s ti di rl) {r x : Nat} (o : Own s ti di r x) : s.st r = .rd := by
  cases o with
  | rd h1 h2 => rw [← h1]; exact h2
  | rtt h1 h2 => rw [← h2]; exact (h.tab x h1).rd
  | data h1 h2 => rw [← h2]; exact (h.data x h1).1
  | recd h1 h2 => rw [← h2]; exact (h.recs x h1).rd
  | aux a h1 h2 h3 h4 => rw [← h4]; exact (h.recs a h2).rd

/-- A granule is kept when it is not one of those updated. -/
theorem own_at {rdA a d g : Nat} (k : At s ti rdA a d g) : Own s ti di rdA g := .rtt k.st (by rw [k.ti])

theorem own_child {rdA a d g c : Nat} (k : Child s ti rdA a d g c) : Own s ti di rdA c := .rtt k.cst (by rw [k.cti])

/-- Granules of a realm change only by operations addressed to that realm. -/
theorem Eff.kept (h : InvG P s ti di rl) {op : Op} {s' : State} {ret : Ret}
    (e : Eff P s ti di s' ret op) {r x : Nat} (o : Own s ti di r x) (ht : op.target s ≠ some r) : Kept s s' x := by
  have ne : ∀ {r' y}, Own s ti di r' y → op.target s = some r' → x ≠ y := by
    rintro r' y o' h1 rfl
    exact ht (by rw [h1, o'.unique h o])
  have nd : ∀ {y}, s.st y = .delegated → x ≠ y := fun hy => o.ne (Or.inr hy)
  cases op with
  | granuleDelegate a =>
    obtain ⟨_, h2, _, _, rfl⟩ := e
    have := o.ne (Or.inl h2)
    exact ⟨upd_ne _ _ _ this, upd_ne _ _ _ this, rfl⟩
  | granuleUndelegate a =>
    obtain ⟨_, h2, _, rfl⟩ := e
    exact ⟨upd_ne _ _ _ (nd h2), rfl, rfl⟩
  | rttCreate rd rtt a lvl =>
    obtain ⟨d, g, e, _, k⟩ := e
    have h1 := ne (own_at k.at_) rfl
    have h2 := nd k.del
    rw [k.st]
    unfold rttCreateSt Kept
    dsimp only
    rw [upd_ne _ _ _ h2, upd_ne _ _ _ h1, upd_ne _ _ _ h2, upd_ne _ _ _ h1, upd_ne _ _ _ h2]
    exact ⟨rfl, rfl, rfl⟩
  | rttFold rd a lvl =>
    obtain ⟨d, g, c, e, _, k⟩ := e
    have h1 := ne (own_at k.ch.at_) rfl
    have h2 := ne (own_child k.ch) rfl
    rw [k.st]
    unfold dropTableSt Kept
    dsimp only
    rw [upd_ne _ _ _ h2, upd_ne _ _ _ h2, upd_ne _ _ _ h1, upd_ne _ _ _ h1, upd_ne _ _ _ h2]
    exact ⟨rfl, rfl, rfl⟩
  | rttDestroy rd a lvl =>
    obtain ⟨d, g, c, _, k⟩ := e
    have h1 := ne (own_at k.ch.at_) rfl
    have h2 := ne (own_child k.ch) rfl
    rw [k.st]
    unfold dropTableSt Kept
    dsimp only
    rw [upd_ne _ _ _ h2, upd_ne _ _ _ h2, upd_ne _ _ _ h1, upd_ne _ _ _ h1, upd_ne _ _ _ h2]
    exact ⟨rfl, rfl, rfl⟩
  | rttMapUnprotected rd a lvl desc =>
    obtain ⟨d, g, _, k⟩ := e
    rw [k.st]
    exact ⟨rfl, upd_ne _ _ _ (ne (own_at k.at_) rfl), rfl⟩
  | rttUnmapUnprotected rd a lvl =>
    obtain ⟨d, g, _, k⟩ := e
    rw [k.st]
    exact ⟨rfl, upd_ne _ _ _ (ne (own_at k.at_) rfl), rfl⟩
  | rttReadEntry rd a lvl => rw [e.1]; exact ⟨rfl, rfl, rfl⟩
  | dataCreateUnknown rd data a =>
    obtain ⟨g, rp, k, _, rfl⟩ := e
    have h1 := ne (own_at k.at_) rfl
    exact ⟨upd_ne _ _ _ (nd k.del), upd_ne _ _ _ h1, upd_ne _ _ _ h1⟩
  | dataCreate rd data a src flags =>
    obtain ⟨g, rp, p, k, _, _, _, _, _, _, rfl⟩ := e
    have h1 := ne (own_at k.at_) rfl
    have h2 := ne (.rd rfl k.at_.rd) rfl
    refine ⟨upd_ne _ _ _ (nd k.del), ?_, upd_ne _ _ _ h1⟩
    unfold dataCreatedSt dataCreateSt
    dsimp only
    rw [upd_ne _ _ _ h1, upd_ne _ _ _ h2, upd_ne _ _ _ (nd k.del)]
  | dataDestroy rd a =>
    obtain ⟨g, pa, rp, k⟩ := e
    have h1 := ne (own_at k.at_) rfl
    obtain ⟨h2, h3⟩ := k.pa_data h
    have h4 := ne (.data (x := pa) h2 (by rw [h3])) rfl
    rw [k.st]
    refine ⟨upd_ne _ _ _ h4, ?_, upd_ne _ _ _ h1⟩
    dsimp only
    rw [upd_ne _ _ _ h4, upd_ne _ _ _ h1]
  | rttInitRipas rd base top =>
    obtain ⟨d, g, m, k⟩ := e
    have h1 := ne (own_at k.at_) rfl
    have h2 := ne (.rd rfl k.at_.rd) rfl
    rw [k.st]
    refine ⟨rfl, ?_, rfl⟩
    dsimp only
    rw [upd_ne _ _ _ h2, upd_ne _ _ _ h1]
  | rttSetRipas rd q base top =>
    obtain ⟨d, g, m, k⟩ := e
    have h1 := ne (own_at k.at_) rfl
    have h2 := ne (.recd k.rst k.own) rfl
    rw [k.st]
    refine ⟨rfl, ?_, rfl⟩
    dsimp only
    rw [upd_ne _ _ _ h2, upd_ne _ _ _ h1]
  | realmActivate rd =>
    have k : ActivateOk P s rd s' ret := e
    rw [k.st]
    exact ⟨rfl, upd_ne _ _ _ (ne (.rd rfl k.rd.2) rfl), rfl⟩
  | realmCreate rd pA q =>
    have k : RealmCreateOk P s rd q s' ret := e
    obtain ⟨ts, _, rfl⟩ := k.st
    have hx : inRange q.rttBase q.p.rttNumStart x = false := by
      by_contra hc
      obtain ⟨j, hj, hh⟩ := (inRange_iff _ _ _).mp (by simpa using hc)
      exact nd (k.roots j hj).2 hh
    unfold realmCreateSt Kept
    dsimp only
    rw [upd_ne _ _ _ (nd k.rd.2), upd_ne _ _ _ (nd k.rd.2), hx]
    exact ⟨rfl, rfl, rfl⟩
  | realmDestroy rd =>
    have k : RealmDestroyOk s rd s' ret := e
    have h2 := ne (.rd rfl k.rd) rfl
    have hx : inRange (rdOf s rd).root (rdOf s rd).nroots x = false := by
      by_contra hc
      obtain ⟨j, hj, hh⟩ := (inRange_iff _ _ _).mp (by simpa using hc)
      obtain ⟨b1, b2⟩ := (h.rds rd k.rd).roots j hj
      exact ne (.rtt b1 (by rw [b2])) rfl hh
    rw [k.st]
    unfold realmDestroySt Kept
    dsimp only
    rw [upd_ne _ _ _ h2, upd_ne _ _ _ h2, hx]
    exact ⟨rfl, rfl, rfl⟩
  | recCreate rd rc pA q =>
    have k : RecCreateOk P s rd rc q s' ret := e
    have h2 := ne (.rd rfl k.rd) rfl
    have h3 := nd k.recd.2
    have h4 : x ∉ q.auxList := fun hx => nd (k.aux x hx).2 rfl
    rw [k.st]
    unfold recCreateSt markAux Kept
    dsimp only
    rw [upd_ne _ _ _ h3, upd_ne _ _ _ h2, upd_ne _ _ _ h3, upd_ne _ _ _ h2, if_neg h4]
    exact ⟨rfl, rfl, rfl⟩
  | recDestroy rc =>
    have k : RecDestroyOk s rc s' ret := e
    have h2 := ne (.recd k.recd rfl) rfl
    have h3 := ne (.rd rfl (h.recs rc k.recd).rd) rfl
    have h4 : x ∉ (recOf s rc).aux := fun hx =>
      ne (.aux rc ((h.recs rc k.recd).auxSt x hx) k.recd hx rfl) rfl rfl
    rw [k.st]
    unfold recDestroySt Kept
    dsimp only
    rw [upd_ne _ _ _ h2, upd_ne _ _ _ h2, upd_ne _ _ _ h3, if_neg h4, if_neg h4]
    exact ⟨rfl, rfl, rfl⟩
  | recAuxCount rd => rw [e.1]; exact ⟨rfl, rfl, rfl⟩
  | psciComplete c t st =>
    have k : PsciOk P s c t st s' ret := e
    have h1 := ne (.recd k.call.2 rfl) rfl
    have h2 := ne (.recd k.tgt.2 k.same.symm) rfl
    rw [k.st]
    refine ⟨rfl, ?_, rfl⟩
    dsimp only
    rw [upd_ne _ _ _ h1]
    split
    · rw [upd_ne _ _ _ h2]
    · rfl
  | recEnter rc run acc rej =>
    obtain ⟨_, k⟩ := e
    have h1 := ne (.recd k.recd.2 rfl) rfl
    rw [k.st]
    exact ⟨rfl, upd_ne _ _ _ h1, upd_ne _ _ _ h1⟩
  | recRun rc stop off regs pc =>
    obtain ⟨h0, _, _, rfl⟩ := e
    have h1 := ne (.recd h0 rfl) rfl
    exact ⟨rfl, upd_ne _ _ _ h1, upd_ne _ _ _ h1⟩
  | psciRequest rc =>
    obtain ⟨h0, _, _, _, rfl⟩ := e
    have h1 := ne (.recd h0 rfl) rfl
    exact ⟨rfl, upd_ne _ _ _ h1, upd_ne _ _ _ h1⟩
  | rsiIpaStateSet rc base top v chg =>
    obtain ⟨h0, _, _, h5⟩ := e
    have h1 := ne (.recd h0 rfl) rfl
    rcases h5 with rfl | ⟨_, _, _, _, _, rfl⟩
    · exact ⟨rfl, upd_ne _ _ _ h1, rfl⟩
    · exact ⟨rfl, upd_ne _ _ _ h1, upd_ne _ _ _ h1⟩
  | psciSystemOff rc =>
    obtain ⟨h0, _, _, rfl⟩ := e
    have h1 := ne (.recd h0 rfl) rfl
    have h2 := ne (.rd rfl (h.recs rc h0).rd) rfl
    exact ⟨rfl, upd_ne _ _ _ h2, upd_ne _ _ _ h1⟩
  | rsiExtend rc i v =>
    obtain ⟨h0, _, _, _, _, rfl⟩ := e
    have h2 := ne (.rd rfl (h.recs rc h0).rd) rfl
    exact ⟨rfl, upd_ne _ _ _ h2, rfl⟩
  | realmWrite rc a p =>
    obtain ⟨h0, _, _, y, rfl, h5⟩ := e
    refine ⟨rfl, upd_ne _ _ _ ?_, rfl⟩
    rcases h5 with ⟨h6, h7, _⟩ | ⟨h6, _⟩
    · exact ne (.data h6 (by rw [h7])) rfl
    · exact o.ne (Or.inl h6)
  | auxWrite rc a p =>
    obtain ⟨h0, _, _, h6, h7, rfl⟩ := e
    exact ⟨rfl, upd_ne _ _ _ (ne (.aux rc h7 h0 h6 rfl) rfl), rfl⟩
  | hostWrite a p =>
    obtain ⟨h0, _, _, rfl⟩ := e
    exact ⟨rfl, upd_ne _ _ _ (o.ne (Or.inl h0)), rfl⟩
  | el3Move a toNs => obtain ⟨_, _, rfl⟩ := e; exact ⟨rfl, rfl, rfl⟩

/-- A granule that belongs to no realm becomes a realm descriptor only by REALM_CREATE. -/
theorem Eff.rd_iff (h : InvG P s ti di rl) {op : Op} {s' : State} {ret : Ret}
    (e : Eff P s ti di s' ret op) {r : Nat} (ht : op.target s ≠ some r) : s'.st r = .rd ↔ s.st r = .rd := by
  constructor
  swap
  · intro hr; rw [(e.kept h (.rd rfl hr) ht).1]; exact hr
  intro hr
  by_contra hn
  cases op with
  | granuleDelegate a =>
    obtain ⟨_, h2, _, _, rfl⟩ := e
    simp only [upd] at hr; split at hr <;> simp_all
  | granuleUndelegate a =>
    obtain ⟨_, h2, _, rfl⟩ := e
    simp only [upd] at hr; split at hr <;> simp_all
  | rttCreate rd rtt a lvl =>
    obtain ⟨d, g, e, _, k⟩ := e
    rw [k.st] at hr; simp only [rttCreateSt, upd] at hr; split at hr <;> simp_all
  | rttFold rd a lvl =>
    obtain ⟨d, g, c, e, _, k⟩ := e
    rw [k.st] at hr; simp only [dropTableSt, upd] at hr; split at hr <;> simp_all
  | rttDestroy rd a lvl =>
    obtain ⟨d, g, c, _, k⟩ := e
    rw [k.st] at hr; simp only [dropTableSt, upd] at hr; split at hr <;> simp_all
  | rttMapUnprotected rd a lvl desc => obtain ⟨d, g, _, k⟩ := e; rw [k.st] at hr; exact hn hr
  | rttUnmapUnprotected rd a lvl => obtain ⟨d, g, _, k⟩ := e; rw [k.st] at hr; exact hn hr
  | rttReadEntry rd a lvl => rw [e.1] at hr; exact hn hr
  | dataCreateUnknown rd data a =>
    obtain ⟨g, rp, k, _, rfl⟩ := e
    simp only [dataCreateSt, upd] at hr; split at hr <;> simp_all
  | dataCreate rd data a src flags =>
    obtain ⟨g, rp, p, k, _, _, _, _, _, _, rfl⟩ := e
    simp only [dataCreatedSt, dataCreateSt, upd] at hr; split at hr <;> simp_all
  | dataDestroy rd a =>
    obtain ⟨g, pa, rp, k⟩ := e
    rw [k.st] at hr; simp only [upd] at hr; split at hr <;> simp_all
  | rttInitRipas rd base top => obtain ⟨d, g, m, k⟩ := e; rw [k.st] at hr; exact hn hr
  | rttSetRipas rd q base top => obtain ⟨d, g, m, k⟩ := e; rw [k.st] at hr; exact hn hr
  | realmActivate rd => rw [ActivateOk.st e] at hr; exact hn hr
  | realmCreate rd pA q =>
    obtain ⟨ts, _, rfl⟩ := RealmCreateOk.st e
    have : r ≠ rd := fun hh => ht (by rw [hh]; rfl)
    simp only [realmCreateSt] at hr
    rw [upd_ne _ _ _ this] at hr
    split at hr <;> simp_all
  | realmDestroy rd =>
    rw [RealmDestroyOk.st e] at hr
    have : r ≠ rd := fun hh => ht (by rw [hh]; rfl)
    simp only [realmDestroySt] at hr
    rw [upd_ne _ _ _ this] at hr
    split at hr <;> simp_all
  | recCreate rd rc pA q =>
    rw [RecCreateOk.st e] at hr
    simp only [recCreateSt, markAux, upd] at hr
    split at hr
    · simp at hr
    · split at hr <;> simp_all
  | recDestroy rc =>
    rw [RecDestroyOk.st e] at hr
    simp only [recDestroySt, upd] at hr
    split at hr
    · simp at hr
    · split at hr <;> simp_all
  | recAuxCount rd => rw [e.1] at hr; exact hn hr
  | psciComplete c t st => rw [PsciOk.st e] at hr; exact hn hr
  | recEnter rc run acc rej => rw [e.2.st] at hr; exact hn hr
  | recRun rc stop off regs pc => obtain ⟨_, _, _, rfl⟩ := e; exact hn hr
  | psciRequest rc => obtain ⟨_, _, _, _, rfl⟩ := e; exact hn hr
  | rsiIpaStateSet rc base top v chg =>
    obtain ⟨_, _, _, h5⟩ := e
    rcases h5 with rfl | ⟨_, _, _, _, _, rfl⟩ <;> exact hn hr
  | psciSystemOff rc => obtain ⟨_, _, _, rfl⟩ := e; exact hn hr
  | rsiExtend rc i v => obtain ⟨_, _, _, _, _, rfl⟩ := e; exact hn hr
  | realmWrite rc a p => obtain ⟨_, _, _, y, rfl, _⟩ := e; exact hn hr
  | auxWrite rc a p => obtain ⟨_, _, _, _, _, rfl⟩ := e; exact hn hr
  | hostWrite a p => obtain ⟨_, _, _, rfl⟩ := e; exact hn hr
  | el3Move a toNs => obtain ⟨_, _, rfl⟩ := e; exact hn hr

/-- Other realms keep their leaves. -/
theorem Eff.leaf_other (hP : PlatOk P) (h : InvG P s ti di rl) {op : Op} {s' : State} {ret : Ret}
    (e : Eff P s ti di s' ret op) (es : step P s op = some (s', ret)) {r : Nat}
    (ht : op.target s ≠ some r) (a : Nat) : leaf s' r a = leaf s r a := by
  obtain ⟨ti', di', rl', h', hti, _⟩ := e.inv hP h es
  apply leaf_frame h h' (e.rd_iff h ht)
  · intro hr
    rw [rdOf_congr (e.kept h (.rd rfl hr) ht).2.1]; exact SameGeo.refl _
  · intro g hg hgr
    have k := e.kept h (.rtt hg hgr) ht
    exact ⟨by rw [k.1]; exact hg, hti g hg, k.2.1⟩

end

end Verif.Rmm
