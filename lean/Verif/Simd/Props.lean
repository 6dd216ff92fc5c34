import Verif.Simd.Keep

/-!
# C61: SIMD state stays with its owner

The statements use the registers of the CPU only: what the host finds when it runs again,
what a realm finds when its registers are loaded again, and which instructions trap.
-/

namespace Verif.Simd

/-! ## The specification -/

/-- What software can see of the vectors: unchanged, or (where `lost` allows it) cleared. -/
def Ok {n : Nat} (lost : Bool) (old new : BitVec n) : Prop := new = old ∨ (lost = true ∧ new = 0)

/-- The host finds its registers as it left them.  `hint` says that it told RMM, by the SVE
hint of an SMC, that it does not need the vectors past 128 bits and the predicates. -/
structure HostSame (P : Plat) (hint : Bool) (h0 h : Hw) : Prop where
  fpsr : h.fpsr = h0.fpsr
  fpcr : h.fpcr = h0.fpcr
  smcr2 : h.smcr2 = h0.smcr2
  zcr : P.sve = true → h.zcr1 = h0.zcr1 ∧ h.zcr2 = h0.zcr2
  sme : P.sme = true → h.sm = h0.sm ∧ h.za = h0.za ∧ h.zaMem = h0.zaMem
  q : ∀ n < 32, h.z n 0 = h0.z n 0
  /-- SVE -/
  z : P.sve = true → ¬ (P.sme = true ∧ h0.sm = true) → ∀ n < 32, ∀ j ≤ P.vl 15, Ok hint (h0.z n j) (h.z n j)
  p : P.sve = true → ¬ (P.sme = true ∧ h0.sm = true) → ∀ n < 16, ∀ j ≤ P.vl 15, Ok hint (h0.p n j) (h.p n j)
  ffr : P.sve = true → ¬ (P.sme = true ∧ h0.sm = true) → ∀ j ≤ P.vl 15, Ok hint (h0.ffr j) (h.ffr j)
  /-- streaming SVE: the hint is ignored -/
  sz : P.sme = true → h0.sm = true → ∀ n < 32, ∀ j ≤ P.svl h0.smcr2.toNat, h.z n j = h0.z n j
  sp : P.sme = true → h0.sm = true → ∀ n < 16, ∀ j ≤ P.svl h0.smcr2.toNat, h.p n j = h0.p n j
  /-- FFR exists in streaming mode with FEAT_SME_FA64 only -/
  sffr : P.sme = true → h0.sm = true → h0.smcr2.getLsbD 31 = true → ∀ j ≤ P.svl h0.smcr2.toNat, h.ffr j = h0.ffr j

/-- A realm finds its registers as it left them; `v` is its vector length. -/
structure RealmSame (sve : Bool) (v : Nat) (h0 h : Hw) : Prop where
  fpsr : h.fpsr = h0.fpsr
  fpcr : h.fpcr = h0.fpcr
  q : ∀ n < 32, h.z n 0 = h0.z n 0
  zcr1 : sve = true → h.zcr1 = h0.zcr1
  z : sve = true → ∀ n < 32, ∀ j ≤ v, h.z n j = h0.z n j
  p : sve = true → ∀ n < 16, ∀ j ≤ v, h.p n j = h0.p n j
  ffr : sve = true → ∀ j ≤ v, h.ffr j = h0.ffr j

/-- Any number of operations, each of them allowed. -/
inductive Run (P : Plat) (ok : State → Op → Prop) : State → State → Prop
  | refl (s) : Run P ok s s
  | step {s t u op} : Run P ok s t → ok t op → Can P t op → step P t op = some u → Run P ok s u

/-- The host does not run on this CPU; and if it gives the hint on it, `hint` says so. -/
def HostIdle (c : Nat) (hint : Bool) (_ : State) : Op → Prop
  | .host c' _ => c' ≠ c
  | .rmi c' b _ _ => c' = c → b = true → hint = true
  | .enter c' b _ => c' = c → b = true → hint = true
  | _ => True

/-- The REC does not run, and it is not destroyed. -/
def RecIdle (r : Nat) (s : State) : Op → Prop
  | .realm c _ => ∀ l, (s.cpu c).mode ≠ .run r l
  | .destroy r' => r' ≠ r
  | _ => True

/-! ## Nothing fails -/

/-- No assertion in the SIMD code fails, and no instruction of RMM traps. -/
theorem C61_total {P : Plat} {s : State} (h : Reach P s) (op : Op) (hc : Can P s op) : step P s op ≠ none := by
  obtain ⟨s', e, -⟩ := inv_step (reach_inv h) op hc
  rw [e]
  simp

theorem run_reach {P : Plat} {ok : State → Op → Prop} {s t : State} (h : Reach P s) (k : Run P ok s t) : Reach P t := by
  induction k with
  | refl => exact h
  | step _ _ hc he ih => exact .step ih hc he

/-! ## The host -/

section
variable {P : Plat}

theorem HostSame.refl (hint : Bool) (h : Hw) : HostSame P hint h h :=
  ⟨rfl, rfl, rfl, fun _ => ⟨rfl, rfl⟩, fun _ => ⟨rfl, rfl, rfl⟩, fun _ _ => rfl, fun _ _ _ _ _ _ => .inl rfl,
    fun _ _ _ _ _ _ => .inl rfl, fun _ _ _ _ => .inl rfl, fun _ _ _ _ _ _ => rfl, fun _ _ _ _ _ _ => rfl,
    fun _ _ _ _ _ => rfl⟩

theorem Ok.trans {n : Nat} {lost : Bool} {a b c : BitVec n} (h : Ok lost a b) (k : Ok lost b c) : Ok lost a c := by
  rcases k with rfl | ⟨e, rfl⟩
  · exact h
  · exact .inr ⟨e, rfl⟩

theorem HostSame.trans {hint : Bool} {a b c : Hw} (h : HostSame P hint a b) (k : HostSame P hint b c) : HostSame P hint a c := by
  have e : P.sme = true → b.sm = a.sm := fun q => (h.sme q).1
  have e1 : ¬ (P.sme = true ∧ a.sm = true) → ¬ (P.sme = true ∧ b.sm = true) := fun q q' => q ⟨q'.1, e q'.1 ▸ q'.2⟩
  have e2 : P.sme = true → a.sm = true → b.sm = true := fun q q' => (e q).trans q'
  refine ⟨k.fpsr.trans h.fpsr, k.fpcr.trans h.fpcr, k.smcr2.trans h.smcr2, ?_, ?_, ?_, ?_, ?_, ?_, ?_, ?_, ?_⟩
  · intro q; exact ⟨(k.zcr q).1.trans (h.zcr q).1, (k.zcr q).2.trans (h.zcr q).2⟩
  · intro q; exact ⟨(k.sme q).1.trans (h.sme q).1, (k.sme q).2.1.trans (h.sme q).2.1, (k.sme q).2.2.trans (h.sme q).2.2⟩
  · intro n hn; exact (k.q n hn).trans (h.q n hn)
  · intro q q' n hn j hj; exact (h.z q q' n hn j hj).trans (k.z q (e1 q') n hn j hj)
  · intro q q' n hn j hj; exact (h.p q q' n hn j hj).trans (k.p q (e1 q') n hn j hj)
  · intro q q' j hj; exact (h.ffr q q' j hj).trans (k.ffr q (e1 q') j hj)
  · intro q q' n hn j hj; exact (k.sz q (e2 q q') n hn j (h.smcr2 ▸ hj)).trans (h.sz q q' n hn j hj)
  · intro q q' n hn j hj; exact (k.sp q (e2 q q') n hn j (h.smcr2 ▸ hj)).trans (h.sp q q' n hn j hj)
  · intro q q' q'' j hj
    exact (k.sffr q (e2 q q') (by rw [h.smcr2]; exact q'') j (h.smcr2 ▸ hj)).trans (h.sffr q q' q'' j hj)

/-- What the code promises the host is what the specification asks for. -/
theorem Same.host (hP : P.Ok) {ns : Ctx} (hn : NsOk P ns) {hint : Bool} (hh : P.sve = true → ns.hint = true → hint = true)
    {h0 h : Hw} (hs : Same P ns h0 h) (hr : Rest h0 h) (hz : P.sve = true → h.zcr2 = h0.zcr2) : HostSame P hint h0 h := by
  have hlen : P.sve = true → str ns h0 = false → len P ns h0 = P.vl 15 := by
    intro q q'
    unfold len
    rw [q', hn.sve, q, hn.zcr2 q]
    simp only [Bool.false_eq_true, if_false, if_true, BitVec.toNat_ofNat]
    have := hP.max
    rw [show P.vl 15 % 16 % 2 ^ 64 % 16 = P.vl 15 by omega]
    exact hP.idem 15
  have hstr : ¬ (P.sme = true ∧ h0.sm = true) → str ns h0 = false := by
    intro q
    unfold str
    rw [hn.sme]
    cases h1 : P.sme <;> cases h2 : h0.sm <;> simp_all
  have hstr' : P.sme = true → h0.sm = true → str ns h0 = true := by
    intro q q'
    simp [str, hn.sme, q, q']
  have hlen' : P.sme = true → h0.sm = true → len P ns h0 = P.svl h0.smcr2.toNat := by
    intro q q'
    unfold len
    rw [hstr' q q', if_pos rfl]
  have k1 : P.sve = true → ∀ {n} {a b : BitVec n}, Kept1 ns h0 a b → Ok hint a b := by
    intro q n a b k
    rcases k with k | ⟨k, -, -, k'⟩
    · exact .inl k
    · exact .inr ⟨hh q k, k'⟩
  have k2 : P.sme = true → h0.sm = true → ∀ {n} {a b : BitVec n}, Kept1 ns h0 a b → b = a := by
    intro q q' n a b k
    rcases k with k | ⟨-, -, k, -⟩
    · exact k
    · rw [hstr' q q'] at k; cases k
  refine ⟨hs.fpsr, hs.fpcr, hr.smcr2, ?_, ?_, hs.z0, ?_, ?_, ?_, ?_, ?_, ?_⟩
  · intro q; exact ⟨hs.zcr1 (hn.sve.trans q), hz q⟩
  · intro q; exact hs.sme (hn.sme.trans q)
  · intro q q' n hn' j hj
    exact k1 q (hs.z n hn' j (by rw [hlen q (hstr q')]; exact hj))
  · intro q q' n hn' j hj
    exact k1 q (hs.p (.inr (hn.sve.trans q)) n hn' j (by rw [hlen q (hstr q')]; exact hj))
  · intro q q' j hj
    exact k1 q (hs.ffr (.inr ⟨hstr q', hn.sve.trans q⟩) j (by rw [hlen q (hstr q')]; exact hj))
  · intro q q' n hn' j hj
    exact k2 q q' (hs.z n hn' j (by rw [hlen' q q']; exact hj))
  · intro q q' n hn' j hj
    exact k2 q q' (hs.p (.inl (hstr' q q')) n hn' j (by rw [hlen' q q']; exact hj))
  · intro q q' q'' j hj
    exact k2 q q' (hs.ffr (.inl ⟨hstr' q q', q''⟩) j (by rw [hlen' q q']; exact hj))

/-- Where the host's registers are while it does not run. -/
structure HostKept (P : Plat) (hint : Bool) (h0 : Hw) (u : Cpu) : Prop where
  told : u.mode ≠ .host → P.sve = true → u.ns.hint = true → hint = true
  off : (∀ r, u.mode ≠ .run r true) → HostSame P hint h0 u.hw
  on : ∀ r, u.mode = .run r true → ∃ hs, HostSame P hint h0 hs ∧ Image P u.ns hs ∧ Rest hs u.hw ∧
    (P.sve = true → u.ns.nsZcr2 = hs.zcr2)

theorem host_step (hP : P.Ok) {s s' : State} {op : Op} {c : Nat} {hint : Bool} {h0 : Hw} (hi : Inv P s)
    (hk : HostKept P hint h0 (s.cpu c)) (ho : HostIdle c hint s op) (hc : Can P s op) (he : step P s op = some s') :
    HostKept P hint h0 (s'.cpu c) := by
  have keep : ∀ {d : Nat} {u : Cpu}, d ≠ c → HostKept P hint h0 ((setCpu s d u).cpu c) := by
    intro d u h
    rw [setCpu_other u (Ne.symm h)]
    exact hk
  cases op with
  | host d h =>
    cases he
    exact keep ho
  | rmi d b fpu f =>
    obtain ⟨h, ns, e, k1, k2, k3, k4⟩ := step_rmi hi hc
    rw [he] at e; cases e
    by_cases q : d = c
    · subst q
      have hm := hc.1
      rw [setCpu_same]
      refine ⟨fun k => absurd hm k, fun k => ?_, fun r k => ?_⟩
      · refine (hk.off k).trans (k4.same.host hP k1 ?_ k4.rest k4.zcr2)
        intro q q'
        rw [k3 q] at q'
        exact ho rfl q'
      · have k : (s.cpu d).mode = .run r true := k
        rw [hm] at k; cases k
    · exact keep q
  | enter d b r =>
    obtain ⟨ns, e, k1, k2, k3⟩ := step_enter hi hc
    rw [he] at e; cases e
    by_cases q : d = c
    · subst q
      have hm := hc.1
      rw [setCpu_same]
      refine ⟨fun _ q q' => ?_, fun k => hk.off (by rw [hm]; simp), fun r k => by cases k⟩
      have q' : ns.hint = true := q'
      rw [k3 q] at q'
      exact ho rfl q'
    · exact keep q
  | realm d h =>
    cases he
    by_cases q : d = c
    · subst q
      obtain ⟨r, l, x, hm, hx, h', hs, rfl⟩ := hc
      rw [setCpu_same]
      refine ⟨hk.told, fun k => ?_, fun r' k => ?_⟩
      · have e : x.cptr = CPTR_INIT := by
          refine (hi.idle r x hx (fun c' h => ?_)).2.1
          have := hi.one d c' r _ _ hm h
          subst this
          exact k r h
        have q : fpen CPTR_INIT = false := by decide
        rw [e, RealmStep, q] at hs
        simp only [Bool.false_eq_true, if_false] at hs
        subst hs
        exact hk.off k
      · obtain ⟨hs', a, b, d', e⟩ := hk.on r' k
        obtain ⟨q1, -⟩ := realm_keeps (hi.cptr_cases hx) hs
        exact ⟨hs', a, b, ⟨q1.za.trans d'.za, q1.zaMem.trans d'.zaMem, q1.smcr2.trans d'.smcr2⟩, e⟩
    · exact keep q
  | trap d e =>
    have hex : ∃ h0, ∀ r x, (s.cpu d).mode = .run r false → s.rec_ r = some x → Image P x.ctx h0 := by
      obtain ⟨r, l, x, hm, hx, -⟩ := hc
      by_cases hl : l = false
      · subst hl
        obtain ⟨-, -, h0, im⟩ := hi.idle r x hx (fun c' h => by
          have := hi.one d c' r _ _ hm h
          subst this
          rw [Live, hm] at h; cases h)
        refine ⟨h0, fun r' y k hy => ?_⟩
        rw [hm] at k; cases k
        rw [hx] at hy; cases hy
        exact im
      · refine ⟨(s.cpu d).hw, fun r' y k _ => ?_⟩
        rw [hm] at k; cases k; exact absurd rfl hl
    obtain ⟨h1, him⟩ := hex
    rcases step_trap hi hc him with e | ⟨r, x, h, ns, hm, hx, e, k1, k2, k3, k4, k5, k6, k7, k8, k9⟩
    · rw [he] at e; cases e; exact hk
    rw [he] at e; cases e
    rw [setRec_cpu]
    by_cases q : d = c
    · subst q
      rw [setCpu_same]
      refine ⟨fun _ q q' => hk.told (by rw [hm]; simp) q (k1.hint ▸ q'), fun k => absurd rfl (k r), fun r' k => ?_⟩
      exact ⟨_, hk.off (by rw [hm]; simp), k3, k7, k4⟩
    · exact keep q
  | rsi d fpu f =>
    rcases step_rsi hi hc with e | ⟨r, h, ns, hm, e, k1, k2, k3, k4⟩ | ⟨r, x, h, ctx, hm, hx, e, k1, k2, k3, k4, k5, k6, k7⟩
    · rw [he] at e; cases e; exact hk
    · rw [he] at e; cases e
      by_cases q : d = c
      · subst q
        rw [setCpu_same]
        refine ⟨fun k q q' => hk.told k q (k3 ▸ q'), fun k => ?_, fun r' k => ?_⟩
        · refine (hk.off k).trans (k4.same.host hP (hi.cpu d).ns (hk.told (by rw [hm]; simp)) k4.rest k4.zcr2)
        · have k : (s.cpu d).mode = .run r' true := k
          rw [hm] at k; cases k
      · exact keep q
    · rw [he] at e; cases e
      rw [setRec_cpu]
      by_cases q : d = c
      · subst q
        rw [setCpu_same]
        refine ⟨hk.told, fun k => absurd hm (k r), fun r' k => ?_⟩
        obtain ⟨hs', a, b, d', e⟩ := hk.on r' k
        exact ⟨hs', a, b, d'.trans k5, e⟩
      · exact keep q
  | leave d =>
    by_cases q : d = c
    · subst q
      have hex : ∃ hs, ∀ r, (s.cpu d).mode = .run r true → HostSame P hint h0 hs ∧
          (P.sve = true → (s.cpu d).ns.nsZcr2 = hs.zcr2) ∧ Image P (s.cpu d).ns hs ∧ Rest hs (s.cpu d).hw := by
        by_cases h : ∃ r, (s.cpu d).mode = .run r true
        · obtain ⟨r, hm⟩ := h
          obtain ⟨hs', a, b, d', e⟩ := hk.on r hm
          exact ⟨hs', fun _ _ => ⟨a, e, b, d'⟩⟩
        · exact ⟨h0, fun r k => absurd ⟨r, k⟩ h⟩
      obtain ⟨hs, him⟩ := hex
      rcases step_leave hi hc (fun r k => (him r k).2.2) with ⟨r, hm, e⟩ | ⟨r, x, h, ctx, hm, hx, e, k1, k2, k3, k4, k5, k6, k7, k8⟩
      · rw [he] at e; cases e
        rw [setCpu_same]
        exact ⟨fun k => absurd rfl k, fun _ => hk.off (by rw [hm]; simp), fun r k => by cases k⟩
      · rw [he] at e; cases e
        rw [setRec_cpu, setCpu_same]
        refine ⟨fun k => absurd rfl k, fun _ => ?_, fun r k => by cases k⟩
        obtain ⟨a, b, -⟩ := him r hm
        exact a.trans (k4.host hP (hi.cpu d).ns (hk.told (by rw [hm]; simp)) k5 (fun q => (k6 q).trans (b q)))
    · have hex : ∃ hs, ∀ r, (s.cpu d).mode = .run r true → Image P (s.cpu d).ns hs ∧ Rest hs (s.cpu d).hw := by
        by_cases h : ∃ r, (s.cpu d).mode = .run r true
        · obtain ⟨r, hm⟩ := h
          obtain ⟨-, -, hs', a, b⟩ := (hi.cpu d).on r hm
          exact ⟨hs', fun _ _ => ⟨a, b⟩⟩
        · exact ⟨h0, fun r k => absurd ⟨r, k⟩ h⟩
      obtain ⟨hs, him⟩ := hex
      rcases step_leave hi hc him with ⟨r, hm, e⟩ | ⟨r, x, h, ctx, hm, hx, e, -⟩
      · rw [he] at e; cases e; exact keep q
      · rw [he] at e; cases e; rw [setRec_cpu]; exact keep q
  | create r sve len' =>
    obtain ⟨ctx, e, -⟩ := step_create hc
    rw [he] at e; cases e; exact hk
  | destroy r => cases he; exact hk

/-- **The host's registers survive everything RMM and realms do.**  Whatever runs on this and
other CPUs until the host runs again on this CPU, it then finds the registers it left; only
with its own hint may the upper vectors and predicates be cleared, and then they are cleared and
hold nothing else. -/
theorem C61_host (hP : P.Ok) {s s' : State} {c : Nat} {hint : Bool} (h : Reach P s) (hr : Run P (HostIdle c hint) s s')
    (hm : (s.cpu c).mode = .host) (hm' : (s'.cpu c).mode = .host) :
    HostSame P hint (s.cpu c).hw (s'.cpu c).hw := by
  have : HostKept P hint (s.cpu c).hw (s'.cpu c) := by
    clear hm'
    induction hr with
    | refl => exact ⟨fun k => absurd hm k, fun _ => .refl _ _, fun r k => by rw [hm] at k; cases k⟩
    | step hr' ok hc he ih => exact host_step hP (reach_inv (run_reach h hr')) ih ok hc he
  exact this.off (by rw [hm']; simp)

/-! ## Realms -/

theorem RealmSame.refl (sve : Bool) (v : Nat) (h : Hw) : RealmSame sve v h h :=
  ⟨rfl, rfl, fun _ _ => rfl, fun _ => rfl, fun _ _ _ _ _ => rfl, fun _ _ _ _ _ => rfl, fun _ _ _ => rfl⟩

theorem RealmSame.trans {sve : Bool} {v : Nat} {a b c : Hw} (h : RealmSame sve v a b) (k : RealmSame sve v b c) :
    RealmSame sve v a c :=
  ⟨k.fpsr.trans h.fpsr, k.fpcr.trans h.fpcr, fun n q => (k.q n q).trans (h.q n q), fun q => (k.zcr1 q).trans (h.zcr1 q),
    fun q n a j b => (k.z q n a j b).trans (h.z q n a j b), fun q n a j b => (k.p q n a j b).trans (h.p q n a j b),
    fun q j b => (k.ffr q j b).trans (h.ffr q j b)⟩

/-- The vector length of a REC. -/
def recVl (P : Plat) (x : RecS) : Nat := P.vl (x.ctx.zcr2.toNat % 16)

theorem Same.realm {x : RecS} (hx : RcOk P x) {h0 h : Hw} (hs : Same P x.ctx h0 h) :
    RealmSame x.sve (recVl P x) h0 h := by
  have e1 : str x.ctx h0 = false := by simp [str, hx.sme]
  have e2 : x.sve = true → len P x.ctx h0 = recVl P x := by
    intro q
    unfold len recVl
    rw [e1, hx.sve, q]
    simp
  have k : ∀ {n} {a b : BitVec n}, Kept1 x.ctx h0 a b → b = a := by
    intro n a b k
    rcases k with k | ⟨k, -⟩
    · exact k
    · rw [hx.hint] at k; cases k
  refine ⟨hs.fpsr, hs.fpcr, hs.z0, fun q => hs.zcr1 (hx.sve.trans q), ?_, ?_, ?_⟩
  · intro q n hn j hj; exact k (hs.z n hn j (by rw [e2 q]; exact hj))
  · intro q n hn j hj; exact k (hs.p (.inr (hx.sve.trans q)) n hn j (by rw [e2 q]; exact hj))
  · intro q j hj; exact k (hs.ffr (.inr ⟨e1, hx.sve.trans q⟩) j (by rw [e2 q]; exact hj))

/-- Where the registers of a REC are. -/
structure RealmKept (P : Plat) (sve : Bool) (v : Nat) (h0 : Hw) (r : Nat) (s : State) : Prop where
  ex : ∃ x, s.rec_ r = some x ∧ x.sve = sve ∧ recVl P x = v ∧
    (∀ c, Live s c r → RealmSame sve v h0 (s.cpu c).hw) ∧
    ((∀ c, ¬ Live s c r) → ∃ hs, RealmSame sve v h0 hs ∧ Image P x.ctx hs)

theorem realm_step {s s' : State} {op : Op} {r : Nat} {sve : Bool} {v : Nat} {h0 : Hw} (hi : Inv P s)
    (hk : RealmKept P sve v h0 r s) (ho : RecIdle r s op) (hc : Can P s op) (he : step P s op = some s') :
    RealmKept P sve v h0 r s' := by
  obtain ⟨x, hx, x1, x2, hon, hoff⟩ := hk
  /- a CPU that does not run the REC changes -/
  have keep : ∀ {d : Nat} {u : Cpu}, (∀ l, (s.cpu d).mode ≠ .run r l) → u.mode ≠ .run r true →
      RealmKept P sve v h0 r (setCpu s d u) := by
    intro d u h h'
    have hL : ∀ c, Live (setCpu s d u) c r → c ≠ d ∧ Live s c r := by
      intro c k
      by_cases q : c = d
      · subst q; rw [Live, setCpu_same] at k; exact absurd k h'
      · rw [Live, setCpu_other u q] at k; exact ⟨q, k⟩
    refine ⟨x, hx, x1, x2, ?_, ?_⟩
    · intro c k
      obtain ⟨a, b⟩ := hL c k
      rw [setCpu_other u a]
      exact hon c b
    · intro k
      refine hoff (fun c k' => k c ?_)
      have : c ≠ d := fun q => h true (q ▸ k')
      rw [Live, setCpu_other u this]
      exact k'
  have keepRec : ∀ {t : State} {r' : Nat} {y : RecS}, r' ≠ r → RealmKept P sve v h0 r t → RealmKept P sve v h0 r (setRec t r' y) := by
    intro t r' y q k
    obtain ⟨x, hx, k⟩ := k.ex
    exact ⟨x, by rw [setRec_other y (Ne.symm q)]; exact hx, k⟩
  cases op with
  | host d h =>
    cases he
    refine keep (fun l k => ?_) (fun k => ?_)
    · rw [hc.1] at k; cases k
    · have k : (s.cpu d).mode = .run r true := k
      rw [hc.1] at k; cases k
  | rmi d b fpu f =>
    obtain ⟨h, ns, e, k1, k2, k3, k4⟩ := step_rmi hi hc
    rw [he] at e; cases e
    refine keep (fun l k => ?_) (fun k => ?_)
    · rw [hc.1] at k; cases k
    · have k : (s.cpu d).mode = .run r true := k
      rw [hc.1] at k; cases k
  | enter d b r' =>
    obtain ⟨ns, e, k1, k2, k3⟩ := step_enter hi hc
    rw [he] at e; cases e
    refine keep (fun l k => ?_) (fun k => ?_)
    · rw [hc.1] at k; cases k
    · cases k
  | realm d h =>
    cases he
    exact keep ho (ho true)
  | trap d e =>
    have hidle : ∀ {r'}, (s.cpu d).mode = .run r' false → ∀ c, ¬ Live s c r' := by
      intro r' hm c h
      have := hi.one d c r' _ _ hm h
      subst this
      rw [Live, hm] at h; cases h
    have hex : ∃ h1, (∀ r x, (s.cpu d).mode = .run r false → s.rec_ r = some x → Image P x.ctx h1) ∧
        ((s.cpu d).mode = .run r false → RealmSame sve v h0 h1) := by
      obtain ⟨r', l, y, hm, hy, -⟩ := hc
      by_cases hl : l = false
      · subst hl
        by_cases q : r' = r
        · subst q
          obtain ⟨hs, a, b⟩ := hoff (hidle hm)
          refine ⟨hs, fun r' y k hy => ?_, fun _ => a⟩
          rw [hm] at k; cases k
          rw [hx] at hy; cases hy
          exact b
        · obtain ⟨-, -, h0, im⟩ := hi.idle r' y hy (hidle hm)
          refine ⟨h0, fun r' y k hy => ?_, fun k => ?_⟩
          · rw [hm] at k; cases k
            rename_i hy'
            rw [hy'] at hy; cases hy
            exact im
          · rw [hm] at k; cases k; exact absurd rfl q
      · refine ⟨(s.cpu d).hw, fun r' y k _ => ?_, fun k => ?_⟩
        · rw [hm] at k; cases k; exact absurd rfl hl
        · rw [hm] at k; cases k; exact absurd rfl hl
    obtain ⟨h1, him, him'⟩ := hex
    rcases step_trap hi hc him with e | ⟨r', y, h, ns, hm, hy, e, k1, k2, k3, k4, k5, k6, k7, k8, k9⟩
    · rw [he] at e; cases e; exact ⟨x, hx, x1, x2, hon, hoff⟩
    rw [he] at e; cases e
    by_cases q : r' = r
    · subst q
      rw [hx] at hy; cases hy
      refine ⟨_, setRec_same _ _, x1, x2, ?_, ?_⟩
      · intro c k
        by_cases q : c = d
        · subst q
          rw [setRec_cpu, setCpu_same]
          have := k5.realm (hi.rc r' x hx)
          rw [x1, x2] at this
          exact (him' hm).trans this
        · rw [Live, setRec_cpu, setCpu_other _ q] at k
          exact absurd k (hidle hm c)
      · intro k
        refine absurd ?_ (k d)
        rw [Live, setRec_cpu, setCpu_same]
    · refine keepRec q (keep (fun l k => ?_) (fun k => ?_))
      · rw [hm] at k; cases k; exact q rfl
      · cases k; exact q rfl
  | rsi d fpu f =>
    rcases step_rsi hi hc with e | ⟨r', h, ns, hm, e, k1, k2, k3, k4⟩ | ⟨r', y, h, ctx, hm, hy, e, k1, k2, k3, k4, k5, k6, k7⟩
    · rw [he] at e; cases e; exact ⟨x, hx, x1, x2, hon, hoff⟩
    · rw [he] at e; cases e
      have hL : ∀ c, Live (setCpu s d { (s.cpu d) with hw := h, flag := false, ns := ns }) c r ↔ (c ≠ d ∧ Live s c r) := by
        intro c
        by_cases q : c = d
        · subst q; simp only [Live, setCpu_same]; rw [hm]; simp
        · simp only [Live, setCpu_other _ q]; simp [q]
      refine ⟨x, hx, x1, x2, ?_, ?_⟩
      · intro c k
        obtain ⟨a, b⟩ := (hL c).mp k
        rw [setCpu_other _ a]
        exact hon c b
      · intro k
        refine hoff (fun c k' => k c ((hL c).mpr ⟨?_, k'⟩))
        intro q
        subst q
        rw [Live, hm] at k'; cases k'
    · rw [he] at e; cases e
      by_cases q : r' = r
      · subst q
        rw [hx] at hy; cases hy
        refine ⟨_, setRec_same _ _, x1, ?_, ?_, ?_⟩
        · rw [← x2]; simp only [recVl, k1.zcr2]
        · intro c k
          by_cases q : c = d
          · subst q
            rw [setRec_cpu, setCpu_same]
            have := k3.realm (hi.rc r' x hx)
            rw [x1, x2] at this
            exact (hon c hm).trans this
          · rw [Live, setRec_cpu, setCpu_other _ q] at k
            exact absurd (hi.one c d r' _ _ k hm) q
        · intro k
          refine absurd ?_ (k d)
          rw [Live, setRec_cpu, setCpu_same]
          exact hm
      · refine keepRec q (keep (fun l k => ?_) (fun k => ?_))
        · rw [hm] at k; cases k; exact q rfl
        · have k : (s.cpu d).mode = .run r true := k
          rw [hm] at k; cases k; exact q rfl
  | leave d =>
    have hex : ∃ hs, ∀ r, (s.cpu d).mode = .run r true → Image P (s.cpu d).ns hs ∧ Rest hs (s.cpu d).hw := by
      by_cases h : ∃ r, (s.cpu d).mode = .run r true
      · obtain ⟨r, hm⟩ := h
        obtain ⟨-, -, hs', a, b⟩ := (hi.cpu d).on r hm
        exact ⟨hs', fun _ _ => ⟨a, b⟩⟩
      · exact ⟨h0, fun r k => absurd ⟨r, k⟩ h⟩
    obtain ⟨hs, him⟩ := hex
    rcases step_leave hi hc him with ⟨r', hm, e⟩ | ⟨r', y, h, ctx, hm, hy, e, k1, k2, k3, -⟩
    · rw [he] at e; cases e
      have hL : ∀ c, Live (setCpu s d { (s.cpu d) with mode := .host }) c r ↔ (c ≠ d ∧ Live s c r) := by
        intro c
        by_cases q : c = d
        · subst q; simp only [Live, setCpu_same]; simp
        · simp only [Live, setCpu_other _ q]; simp [q]
      refine ⟨x, hx, x1, x2, ?_, ?_⟩
      · intro c k
        obtain ⟨a, b⟩ := (hL c).mp k
        rw [setCpu_other _ a]
        exact hon c b
      · intro k
        refine hoff (fun c k' => k c ((hL c).mpr ⟨?_, k'⟩))
        intro q
        subst q
        rw [Live, hm] at k'; cases k'
    · rw [he] at e; cases e
      by_cases q : r' = r
      · subst q
        rw [hx] at hy; cases hy
        refine ⟨_, setRec_same _ _, x1, ?_, ?_, ?_⟩
        · rw [← x2]; simp only [recVl, k1.zcr2]
        · intro c k
          by_cases q : c = d
          · subst q
            rw [Live, setRec_cpu, setCpu_same] at k; cases k
          · rw [Live, setRec_cpu, setCpu_other _ q] at k
            exact absurd (hi.one c d r' _ _ k hm) q
        · intro _
          exact ⟨_, hon d hm, k3⟩
      · refine keepRec q (keep (fun l k => ?_) (fun k => ?_))
        · rw [hm] at k; cases k; exact q rfl
        · cases k
  | create r' sve' len' =>
    obtain ⟨ctx, e, -⟩ := step_create hc
    rw [he] at e; cases e
    refine keepRec (fun q => ?_) ⟨x, hx, x1, x2, hon, hoff⟩
    have := hc.1
    rw [q, hx] at this; cases this
  | destroy r' =>
    cases he
    have : r ≠ r' := fun q => ho q.symm
    exact ⟨x, by simp [this, hx], x1, x2, hon, hoff⟩

/-- **A realm's registers survive everything the host, RMM and other realms do.**  Between two
moments when the registers of a REC are loaded, on whatever CPUs, and the REC did not run in
between, they are the same. -/
theorem C61_realm {s s' : State} {c c' r : Nat} {x : RecS} (h : Reach P s) (hx : s.rec_ r = some x)
    (hr : Run P (RecIdle r) s s') (hm : (s.cpu c).mode = .run r true) (hm' : (s'.cpu c').mode = .run r true) :
    RealmSame x.sve (recVl P x) (s.cpu c).hw (s'.cpu c').hw := by
  have : RealmKept P x.sve (recVl P x) (s.cpu c).hw r s' := by
    clear hm'
    induction hr with
    | refl =>
      refine ⟨x, hx, rfl, rfl, fun d k => ?_, fun k => absurd hm (k c)⟩
      have := (reach_inv h).one c d r _ _ hm k
      subst this
      exact .refl _ _ _
    | step hr' ok hc he ih => exact realm_step (reach_inv (run_reach h hr')) ih ok hc he
  obtain ⟨y, -, -, -, k, -⟩ := this.ex
  exact k c' hm'

/-- Cleared registers. -/
def clearHw : Hw :=
  { z := fun _ _ => 0, p := fun _ _ => 0, ffr := fun _ => 0, fpsr := 0, fpcr := 0, zcr1 := 0, zcr2 := 0, smcr2 := 0, sm := false
    za := false, zaMem := 0, cptr := 0 }

/-- **A new REC starts with cleared registers.**  Whatever the CPU was used for before: what the
realm sees when its registers are first loaded is zero. -/
theorem C61_fresh {s s1 s' : State} {c r len' : Nat} {sve : Bool} (h : Reach P s) (hc : Can P s (.create r sve len'))
    (he : step P s (.create r sve len') = some s1) (hr : Run P (RecIdle r) s1 s') (hm : (s'.cpu c).mode = .run r true) :
    RealmSame sve (P.vl (len' % 16)) clearHw (s'.cpu c).hw := by
  have h1 : Reach P s1 := .step h hc he
  obtain ⟨ctx, e, k1, k2, k3, z1, z2, z3, z4, z5, z6⟩ := step_create hc
  rw [he] at e
  have e := Option.some.inj e
  obtain ⟨y, hy⟩ : ∃ y, y = ({ ctx := ctx, cptr := CPTR_INIT, sve := sve } : RecS) := ⟨_, rfl⟩
  have hnl : ∀ d, ¬ Live s1 d r := by
    intro d k
    rw [e] at k
    have := (reach_inv h).has d r true k
    rw [hc.1] at this; cases this
  have key : RealmKept P sve (recVl P y) clearHw r s' := by
    clear hm
    induction hr with
    | refl =>
      refine ⟨y, by rw [e, hy]; exact setRec_same _ _, by rw [hy], rfl, fun d k => absurd k (hnl d), fun _ => ?_⟩
      refine ⟨clearHw, .refl _ _ _, ?_⟩
      subst hy
      refine ⟨?_, z4, z5, fun _ => z6, ?_, ?_⟩
      · intro k
        have k : ctx.sme = true := k
        rw [k1.sme] at k; cases k
      · intro _; simp [z1, z2, z3, clearHw]
      · intro _; simp [z1, clearHw]
    | step hr' ok hc he ih => exact realm_step (reach_inv (run_reach h1 hr')) ih ok hc he
  obtain ⟨y', -, -, -, k, -⟩ := key.ex
  have k := k c hm
  cases sve with
  | false => exact ⟨k.fpsr, k.fpcr, k.q, nofun, nofun, nofun, nofun⟩
  | true =>
    have : recVl P y = P.vl (len' % 16) := by
      simp only [recVl, hy, k3 rfl, BitVec.toNat_ofNat]
      rw [show len' % 16 % 2 ^ 64 % 16 = len' % 16 by omega]
    rwa [this] at k

/-! ## Traps -/

/-- **A realm uses the registers only while they hold its own state, and only as configured.**
Until its registers are loaded every use of floating point, SVE and SME traps; after that floating
point is allowed, SVE exactly if the realm has it and up to the realm's vector length, SME never. -/
theorem C61_trap {s : State} {c r : Nat} {l : Bool} {x : RecS} (h : Reach P s) (hm : (s.cpu c).mode = .run r l)
    (hx : s.rec_ r = some x) :
    x.cptr &&& 0x3000000 = 0 ∧
    (l = false → x.cptr &&& 0x300000 = 0 ∧ x.cptr &&& 0x30000 = 0) ∧
    (l = true → x.cptr &&& 0x300000 = 0x300000 ∧ x.cptr &&& 0x30000 = (if x.sve then 0x30000 else 0) ∧
      (x.sve = true → (s.cpu c).hw.zcr2 = x.ctx.zcr2)) := by
  have hi := reach_inv h
  cases l with
  | false =>
    have := (hi.idle r x hx (fun c' k => by
      have := hi.one c c' r _ _ hm k
      subst this
      rw [Live, hm] at k; cases k)).2.1
    rw [this]
    exact ⟨by decide, fun _ => by decide, nofun⟩
  | true =>
    obtain ⟨-, k, k'⟩ := hi.live r x c hx hm
    rw [k]
    have q : ∀ a, enableFlags a false CPTR_INIT &&& 0x3000000 = 0 ∧ enableFlags a false CPTR_INIT &&& 0x300000 = 0x300000 ∧
        enableFlags a false CPTR_INIT &&& 0x30000 = (if a then 0x30000 else 0) := by decide
    exact ⟨(q _).1, nofun, fun _ => ⟨(q _).2.1, (q _).2.2, k'⟩⟩

/-- RMM runs with the registers disabled for itself whenever it is not switching them. -/
theorem C61_rmm {s : State} (h : Reach P s) (c : Nat) : (s.cpu c).hw.cptr &&& 0x3330000 = 0 := by
  rw [((reach_inv h).cpu c).cptr]
  decide

/-- **The save area is large enough**: for any vector length RMM uses, the bytes stored lie within
the arrays of `struct sve_regs` (simd.h:84-88: 32 vectors, 16 predicates and FFR of 2048 bits). -/
theorem C61_area (hP : P.Ok) (h : Hw) (n j : Nat) (hj : j ≤ vq P h) :
    (n < 32 → n * (vq P h + 1) + j < 512) ∧ (n < 16 → n * (vq P h + 1) + j < 256) ∧ j < 16 := by
  have hv : vq P h ≤ 15 := by
    unfold vq
    split
    · exact hP.smax _
    · exact Nat.le_trans (hP.mono _ 15 (by omega)) hP.max
  refine ⟨fun hn => ?_, fun hn => ?_, by omega⟩
  · have := row_lt hj hn
    omega
  · have := row_lt hj hn
    omega

end

/-! ## The hypotheses hold of a non-trivial execution

A CPU with SVE (up to 1024 bits) and SME; the host runs in streaming mode with a value in each
register, creates a REC with SVE of 512 bits, enters it; the realm traps, its registers are
loaded, it writes them, calls RSI for a token, and leaves; it is entered again on
another CPU and traps again. -/

namespace Demo

def P : Plat := { sve := true, sme := true, vl := fun a => min a 7, svl := fun _ => 3, keep := false, fpuAtEl2 := true }

theorem ok : P.Ok := ⟨fun a b h => by simp only [P]; omega, fun a => by simp only [P]; omega, by decide, fun _ => by simp [P]⟩

def hw0 : Hw :=
  { z := fun n j => BitVec.ofNat 128 (100 * n + j), p := fun n j => BitVec.ofNat 16 (n + j), ffr := fun _ => 5, fpsr := 1, fpcr := 2
    zcr1 := 3, zcr2 := 15, smcr2 := 0, sm := true, za := true, zaMem := 9, cptr := CPTR_INIT }

def ns0 : Ctx := (contextInit P true zeroCtx true 7 true).getD zeroCtx

def s0 : State := { cpu := fun _ => { hw := hw0, flag := false, ns := ns0, mode := .host }, rec_ := fun _ => none }

theorem init0 : Init P s0 := ⟨fun _ => rfl, fun _ => rfl, fun _ => rfl, fun _ => rfl, nofun, fun _ => rfl⟩

def go (s : State) (op : Op) : State := (step P s op).getD s

/-- The realm's registers. -/
def own (h : Hw) : Hw := { h with z := fun n j => if j ≤ 3 then BitVec.ofNat 128 (7 * n + j + 1) else h.z n j, fpsr := 77 }

/-- What RMM does to the registers while it makes a token. -/
def use (h : Hw) : Hw := { h with z := fun n j => if j = 0 then BitVec.ofNat 128 (n + 55) else h.z n j, fpsr := 4 }

theorem use_ok (h : Hw) : FpStep h (use h) := ⟨fun n j k => .inl (by simp [use]; omega), rfl⟩

def s1 := go s0 (.create 8 true 3)
def s2 := go s1 (.enter 0 false 8)
def s3 := go s2 (.trap 0 .sve)
def s4 := go s3 (.realm 0 (own (s3.cpu 0).hw))
def s5 := go s4 (.rsi 0 true use)
def s6 := go s5 (.leave 0)
def s7 := go s6 (.enter 1 false 8)
def s8 := go s7 (.trap 1 .fpu)

theorem e1 : step P s0 (.create 8 true 3) = some s1 := rfl
theorem e2 : step P s1 (.enter 0 false 8) = some s2 := rfl
theorem e3 : step P s2 (.trap 0 .sve) = some s3 := rfl
theorem e4 : step P s3 (.realm 0 (own (s3.cpu 0).hw)) = some s4 := rfl
theorem e5 : step P s4 (.rsi 0 true use) = some s5 := rfl
theorem e6 : step P s5 (.leave 0) = some s6 := rfl
theorem e7 : step P s6 (.enter 1 false 8) = some s7 := rfl
theorem e8 : step P s7 (.trap 1 .fpu) = some s8 := rfl

theorem c1 : Can P s0 (.create 8 true 3) := ⟨rfl, fun _ => ⟨rfl, by decide⟩⟩
theorem c2 : Can P s1 (.enter 0 false 8) := ⟨rfl, rfl, fun _ _ => nofun⟩
theorem c3 : Can P s2 (.trap 0 .sve) := ⟨8, false, _, rfl, rfl, by decide⟩
theorem c4 : Can P s3 (.realm 0 (own (s3.cpu 0).hw)) := by
  refine ⟨8, true, _, rfl, rfl, own { (s3.cpu 0).hw with cptr := enableFlags true false CPTR_INIT }, ?_, rfl⟩
  show SveStep 3 _ _
  refine ⟨fun n j k => .inl ?_, rfl⟩
  simp only [own]
  rw [if_neg (by omega)]
theorem c5 : Can P s4 (.rsi 0 true use) := ⟨⟨8, true, rfl⟩, use_ok⟩
theorem c6 : Can P s5 (.leave 0) := ⟨8, true, rfl⟩
theorem c7 : Can P s6 (.enter 1 false 8) := by
  refine ⟨rfl, rfl, fun c l h => ?_⟩
  cases c with
  | zero => cases h
  | succ c =>
    have : (s6.cpu (c + 1)).mode = .host := rfl
    rw [this] at h; cases h
theorem c8 : Can P s7 (.trap 1 .fpu) := ⟨8, false, _, rfl, rfl, by decide⟩

theorem r1 : Reach P s1 := .step (.init init0) c1 e1
theorem r3 : Reach P s3 := .step (.step r1 c2 e2) c3 e3
theorem r4 : Reach P s4 := .step r3 c4 e4
theorem r8 : Reach P s8 := .step (.step (.step (.step r4 c5 e5) c6 e6) c7 e7) c8 e8

theorem hostRun : Run P (HostIdle 0 false) s1 s6 :=
  .step (op := .leave 0) (.step (op := .rsi 0 true use) (.step (op := .realm 0 (own (s3.cpu 0).hw)) (.step (op := .trap 0 .sve) (.step (op := .enter 0 false 8) (.refl _) (fun _ h => nomatch h) c2 e2) trivial c3 e3) trivial c4 e4) trivial c5 e5) trivial c6 e6
theorem realmRun : Run P (RecIdle 8) s4 s8 :=
  .step (op := .trap 1 .fpu) (.step (op := .enter 1 false 8) (.step (op := .leave 0) (.step (op := .rsi 0 true use) (.refl _) trivial c5 e5) trivial c6 e6) trivial c7 e7) trivial c8 e8
theorem freshRun : Run P (RecIdle 8) s1 s3 :=
  .step (op := .trap 0 .sve) (.step (op := .enter 0 false 8) (.refl _) trivial c2 e2) trivial c3 e3

/-- Nothing fails in any of these states. -/
example : step P s4 (.rsi 0 true use) ≠ none := C61_total r4 _ c5

/-- The host finds its registers, streaming mode and all, though the realm and RMM wrote them. -/
example : HostSame P false (s1.cpu 0).hw (s6.cpu 0).hw ∧
    (s1.cpu 0).hw.z 3 2 = 302 ∧ (s4.cpu 0).hw.z 3 2 = 24 ∧ (s6.cpu 0).hw.z 3 2 = 302 ∧
    (s1.cpu 0).hw.sm = true ∧ (s4.cpu 0).hw.sm = false ∧ (s6.cpu 0).hw.sm = true :=
  ⟨C61_host ok r1
    hostRun rfl rfl,
    by decide +kernel, by decide +kernel, by decide +kernel, by decide +kernel, by decide +kernel, by decide +kernel⟩

/-- The realm finds its registers on the other CPU. -/
example : RealmSame true 3 (s4.cpu 0).hw (s8.cpu 1).hw ∧ (s8.cpu 1).hw.z 3 2 = 24 ∧ (s7.cpu 1).hw.z 3 2 = 302 :=
  ⟨C61_realm r4 rfl realmRun rfl rfl,
    by decide +kernel, by decide +kernel⟩

/-- A new REC sees zero, not the host's registers. -/
example : RealmSame true 3 clearHw (s3.cpu 0).hw ∧ (s3.cpu 0).hw.z 3 2 = 0 ∧ (s2.cpu 0).hw.z 3 2 = 302 :=
  ⟨C61_fresh (.init init0) c1 e1 freshRun rfl, by decide +kernel, by decide +kernel⟩

/-- Before its registers are loaded, and after. -/
example : (∃ x, s2.rec_ 8 = some x ∧ x.cptr &&& 0x30000 = 0) ∧ ∃ x, s3.rec_ 8 = some x ∧ x.cptr &&& 0x30000 = 0x30000 :=
  ⟨⟨_, rfl, ((C61_trap (.step r1 c2 e2) (c := 0) rfl rfl).2.1 rfl).2⟩, _, rfl, ((C61_trap r3 (c := 0) rfl rfl).2.2 rfl).2.1⟩

/-- The hint matters: with it the upper part of the vectors may be lost (here: the host is not in
streaming mode), but it is zero then. -/
def t0 : State := { s0 with cpu := fun c => { s0.cpu c with hw := { hw0 with sm := false } } }
def t1 := go t0 (.rmi 0 true true use)

example : Init P t0 ∧ Can P t0 (.rmi 0 true true use) ∧ step P t0 (.rmi 0 true true use) = some t1 ∧
    (t0.cpu 0).hw.z 3 2 = 302 ∧ (t1.cpu 0).hw.z 3 2 = 0 ∧ (t1.cpu 0).hw.z 3 0 = 300 :=
  ⟨⟨fun _ => rfl, fun _ => rfl, fun _ => rfl, fun _ => rfl, nofun, fun _ => rfl⟩, ⟨rfl, use_ok⟩, rfl, by decide +kernel,
    by decide +kernel, by decide +kernel⟩

example (n : Nat) (hn : n < 32) : n * 8 + 7 < 512 := (C61_area ok { hw0 with sm := false } n 7 (by decide)).1 hn

example : (s4.cpu 0).hw.cptr &&& 0x3330000 = 0 := C61_rmm r4 0

end Demo

end Verif.Simd
