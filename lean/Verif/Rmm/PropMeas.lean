import Verif.Rmm.PropHist
import Verif.Meas.Props

/-!
# C32, C33: the measurements of a realm and its history

`Rd.rim` of the model is the log of the calls that update the realm initial measurement.
Here it is shown to be the list of the measured commands that succeeded since the realm was created,
and is connected to the bytes of `Verif.Meas`.
-/

namespace Verif.Rmm

/-- The commands that are to be measured into realm `x`. -/
def Op.measures (x : Nat) : Op → Prop
  | .dataCreate rd _ _ _ _ => rd = x
  | .rttInitRipas rd _ _ => rd = x
  | .recCreate rd _ _ q => rd = x ∧ q.flags.getLsbD 0 = true
  | _ => False

/-- What a command performed in state `s` with result `ret` contributes to the measurement of realm
`x`. -/
inductive Contrib (s : State) (x : Nat) : Op → Ret → List MeasEv → Prop
  /-- DATA_CREATE: the address, and the contents of the source page if they are to be measured -/
  | data {d a src fl p ret} : ret.status = 0 → s.mem src = .page p →
      Contrib s x (.dataCreate x d a src fl) ret [.data a (if fl = 1 then some p else none)]
  /-- RTT_INIT_RIPAS: the entries from `b` up to the address that was returned -/
  | ripas {b t d m ret} : ret.status = 0 → 0 < m → ret.x1 = b + m * sz d → ret.x1 ≤ t →
      Contrib s x (.rttInitRipas x b t) ret
        ((List.range m).map fun k => .ripas (b + k * sz d) (b + (k + 1) * sz d))
  /-- REC_CREATE of a runnable REC -/
  | recd {r p q ret} : ret.status = 0 → q.flags.getLsbD 0 = true →
      Contrib s x (.recCreate x r p q) ret [.recd ((List.range 8).map q.gprs) q.pc q.flags]
  /-- anything else, and whatever fails, contributes nothing -/
  | other {op ret} : ¬ op.measures x ∨ ret.status ≠ 0 → Contrib s x op ret []

/-- `Log P x s l`: in state `s`, `l` is what has been measured since the creation of the live realm
`x`. -/
inductive Log (P : Plat) (x : Nat) : State → List MeasEv → Prop
  | create {s s' pA q ret} : Reach P s → step P s (.realmCreate x pA q) = some (s', ret) → ret.status = 0 →
      Log P x s' [.params q.p]
  | next {s s' op ret l new} : Log P x s l → step P s op = some (s', ret) → s'.st x = .rd →
      Contrib s x op ret new → Log P x s' (l ++ new)

section
variable {P : Plat} {s s' : State} {ret : Ret}
open Demo

theorem ripasEvs_spec (d b m : Nat) :
    ripasEvs d b m = (List.range m).map fun k => MeasEv.ripas (b + k * sz d) (b + (k + 1) * sz d) := by
  unfold ripasEvs
  refine List.map_congr_left fun k _ => ?_
  simp [Nat.add_mul, Nat.add_assoc]

theorem contrib_step (hP : PlatOk P) (hr : Reach P s) {op : Op} (e : step P s op = some (s', ret)) {x : Nat}
    (hs : s.st x = .rd) (hs' : s'.st x = .rd) :
    ∃ new, Contrib s x op ret new ∧ (rdOf s' x).rim = (rdOf s x).rim ++ new := by
  obtain ⟨ti, di, rl, h⟩ := hr.inv hP
  rcases step_eff hP h e with ⟨rfl, h0⟩ | k
  · refine ⟨[], .other ?_, (List.append_nil _).symm⟩
    by_cases hm : op.rmi = true
    · exact Or.inr (h0 hm)
    · left; intro h1; cases op <;> simp_all [Op.measures, Op.rmi]
  · by_cases hm : op.measures x
    · cases op with
      | dataCreate rd data a src fl =>
        cases hm
        obtain ⟨g, rp, p, hd, rfl, _, _, _, _, hp, rfl⟩ := k
        have hg := ne_of_st hd.at_.rd hd.at_.st (by simp)
        refine ⟨_, .data rfl hp, ?_⟩
        rw [rdOf_of_mem (r := { rdOf s x with
          rim := (rdOf s x).rim ++ [.data a (if fl = 1 then some p else none)] })]
        simp only [dataCreatedSt, dataCreateSt]
        rw [upd_ne _ _ _ hg, upd_same]
      | rttInitRipas rd b t =>
        cases hm
        obtain ⟨d, g, m, k⟩ := k
        refine ⟨_, .ripas (d := d) (m := m) (by rw [k.ret]) k.m1 (by rw [k.ret]) (by rw [k.ret]; exact k.le), ?_⟩
        have hmem := k.st
        subst hmem
        rw [rdOf_of_mem (upd_same _ _ _), ripasEvs_spec]
      | recCreate rd r pA q =>
        obtain ⟨rfl, hf⟩ := hm
        have k : RecCreateOk P s rd r q s' ret := k
        refine ⟨_, .recd (by rw [k.ret]) hf, ?_⟩
        have := k.st
        subst this
        rw [rdOf_of_mem (upd_same _ _ _)]
        dsimp only
        rw [if_pos hf]
      | _ => cases hm
    · refine ⟨[], .other (Or.inl hm), ?_⟩
      rw [List.append_nil]
      rcases k.rd_step h hs' with ⟨_, h1, _⟩ | h1
      · rw [h1]
      · cases h1 with
        | create h2 => rw [hs] at h2; cases h2
        | data | init => exact absurd rfl hm
        | recCreate _ _ h2 =>
          rw [h2]; dsimp only
          rw [if_neg (fun hf => hm ⟨rfl, hf⟩)]
        | activate _ _ h2 | recDestroy _ _ _ h2 | systemOff _ _ _ _ h2 | extend _ _ _ _ _ _ h2 => rw [h2]

theorem Log.reach {x : Nat} {l : List MeasEv} (h : Log P x s l) : Reach P s := by
  induction h with
  | create hr e _ => exact .step hr e
  | next _ e _ _ ih => exact .step ih e

/-- **C32** The measurement log of every live realm, in every reachable state, is the realm
parameters followed by what the successful measured commands contributed, in order. -/
theorem C32_log_of_history (hP : PlatOk P) (hr : Reach P s) {x : Nat} (hx : s.st x = .rd) :
    Log P x s (rdOf s x).rim := by
  induction hr with
  | init h => rw [h.st] at hx; cases hx
  | step hr e ih =>
    rename_i u u' op ret
    by_cases hu : u.st x = .rd
    · obtain ⟨new, h1, h2⟩ := contrib_step hP hr e hu hx
      rw [h2]
      exact .next (ih hu) e hx h1
    · obtain ⟨ti, di, rl, h⟩ := hr.inv hP
      rcases step_eff hP h e with ⟨rfl, h0⟩ | k
      · exact absurd hx hu
      · have k0 := k
        rcases k.rd_step h hx with ⟨h1, _⟩ | h1
        · exact absurd h1 hu
        · cases h1 with
          | create _ h2 =>
            rw [h2]
            have k1 : RealmCreateOk P u x _ u' ret := k0
            exact .create hr e (by rw [k1.ret])
          | data h2 | init h2 | recCreate h2 | activate h2 | recDestroy h2 | systemOff h2 | extend h2 =>
            exact absurd h2 hu

/-- **C32** Once a realm has left the NEW state its log never changes again, nor does it become NEW
again, for as long as it exists. -/
theorem C32_log_frozen (hP : PlatOk P) (hr : Reach P s) {x : Nat} (hx : s.st x = .rd) (hn : (rdOf s x).state ≠ .new)
    {t : State} (r : Run P (fun u _ => u.st x = .rd) s t) (ht : t.st x = .rd) :
    (rdOf t x).rim = (rdOf s x).rim ∧ (rdOf t x).state ≠ .new := by
  induction r with
  | refl => exact ⟨rfl, hn⟩
  | tail r hu e ih =>
    obtain ⟨h1, h2⟩ := ih hu
    have hr' := r.reach hr
    obtain ⟨ti, di, rl, h⟩ := hr'.inv hP
    rcases step_eff hP h e with ⟨rfl, h0⟩ | k
    · exact ⟨h1, h2⟩
    · rcases k.rd_step h ht with ⟨_, h3, _⟩ | h3
      · rw [h3]; exact ⟨h1, h2⟩
      · cases h3 with
        | create h4 => rw [hu] at h4; cases h4
        | data _ h4 | init _ h4 | recCreate _ h4 | activate _ h4 => exact absurd h4 h2
        | recDestroy _ _ _ h4 | extend _ _ _ _ _ _ h4 => rw [h4]; exact ⟨h1, h2⟩
        | systemOff _ _ _ _ h4 => rw [h4]; exact ⟨h1, by simp⟩

/-- **C33** The only thing that ever changes an extensible measurement of a live realm is
RSI_MEASUREMENT_EXTEND issued by a running REC of that same realm, with index 1 to 4, and it changes
that one alone and leaves the initial measurement. -/
theorem C33_only_extend (hP : PlatOk P) (hr : Reach P s) {op : Op} (e : step P s op = some (s', ret)) {x : Nat}
    (hs : s.st x = .rd) (hs' : s'.st x = .rd) (hne : (rdOf s' x).rem ≠ (rdOf s x).rem) :
    ∃ r i v, op = .rsiExtend r i v ∧ s.st r = .recd ∧ s.rc r = 1 ∧ (recOf s r).rd = x ∧ 1 ≤ i ∧ i ≤ 4 ∧
      (rdOf s' x).rem i = (rdOf s x).rem i ++ [v] ∧ (∀ j, j ≠ i → (rdOf s' x).rem j = (rdOf s x).rem j) ∧
      (rdOf s' x).rim = (rdOf s x).rim := by
  obtain ⟨ti, di, rl, h⟩ := hr.inv hP
  rcases step_eff hP h e with ⟨rfl, h0⟩ | k
  · exact absurd rfl hne
  · rcases k.rd_step h hs' with ⟨_, h3, _⟩ | h3
    · rw [h3] at hne; exact absurd rfl hne
    · cases h3 with
      | create h4 => rw [hs] at h4; cases h4
      | data _ _ _ h4 | init _ _ _ h4 | recCreate _ _ h4 | activate _ _ h4 | recDestroy _ _ _ h4 | systemOff _ _ _ _ h4 =>
        rw [h4] at hne; exact absurd rfl hne
      | extend h1 h2 h3 h4 h5 h6 h7 =>
        refine ⟨_, _, _, rfl, h2, h3, h4, h5, h6, ?_, fun j hj => ?_, ?_⟩
        · rw [h7]; exact upd_same _ _ _
        · rw [h7]; exact upd_ne _ _ _ hj
        · rw [h7]

/-! ## Bytes -/

/-- The parameters as hashed. -/
def measParams (p : Features.Params) : Meas.Params :=
  { flags := p.flags, s2sz := .ofNat _ p.s2sz, sveVl := .ofNat _ p.sveVl, numBps := .ofNat _ p.numBps
    numWps := .ofNat _ p.numWps, pmuNumCtrs := .ofNat _ p.pmuNumCtrs, algorithm := .ofNat _ p.algorithm }

/-- An event as measured; `bytes` gives the contents of the abstract pages. -/
def measEv (bytes : Page → List Meas.Byte) : MeasEv → Option Meas.Ev
  | .params _ => none
  | .data ipa (some p) => some (.data (.ofNat _ ipa) 1 (bytes p))
  | .data ipa none => some (.data (.ofNat _ ipa) 0 [])
  | .ripas b t => some (.ripas (.ofNat _ b) (.ofNat _ t))
  | .recd g pc fl => some (.recd { flags := fl, pc := pc, gprs := fun i => g[i.val]?.getD 0 })

/-- The bytes of the measurement slot that result from performing the logged calls (Meas.Model) on a
descriptor whose slot held `slot0`. -/
def rimBytes (h : Meas.Hash) (a : Meas.Algo) (slot0 : List Meas.Byte) (bytes : Page → List Meas.Byte) :
    List MeasEv → List Meas.Byte
  | .params p :: es => Meas.rimSlot h a slot0 (measParams p) (es.filterMap (measEv bytes))
  | _ => slot0

/-- Every log starts with the parameters the realm was created with. -/
theorem Log.head {x : Nat} {l : List MeasEv} (h : Log P x s l) : ∃ p es, l = .params p :: es := by
  induction h with
  | create => exact ⟨_, [], rfl⟩
  | next _ _ _ _ ih => obtain ⟨p, es, rfl⟩ := ih; exact ⟨p, es ++ _, rfl⟩

/-- **C32** In every reachable state the bytes of the realm initial measurement of a live realm are
the fold of the hash over its parameters and its measured history. -/
theorem C32_realm_measurement (hP : PlatOk P) (hr : Reach P s) {x : Nat} (hx : s.st x = .rd)
    (h : Meas.Hash) (a : Meas.Algo) (slot0 : List Meas.Byte) (hl : 64 ≤ slot0.length)
    (bytes : Page → List Meas.Byte) :
    ∃ p es, Log P x s (.params p :: es) ∧
      (rimBytes h a slot0 bytes (rdOf s x).rim).take a.size =
        Meas.specRim h a (measParams p) (es.filterMap (measEv bytes)) := by
  have k := C32_log_of_history hP hr hx
  obtain ⟨p, es, e⟩ := k.head
  rw [e] at k ⊢
  exact ⟨p, es, k, (Meas.C32_rim_chain h a slot0 hl _ _).1⟩

/-- The realm of the demo execution is reachable and its log has the parameters, four ranges, one
measured page and two RECs. -/
example : ∃ s, Reach plat s ∧ s.st (G 16) = .rd ∧ (rdOf s (G 16)).rim.length = 8 := by
  have : ((run plat boot all).map fun s => (s.st (G 16), (rdOf s (G 16)).rim.length)) = some (.rd, 8) := by
    decide +kernel
  obtain ⟨s, h1, h2⟩ := Option.map_eq_some_iff.mp this
  simp only [Prod.mk.injEq] at h2
  exact ⟨s, run_reach all (.init boot_init) h1, h2⟩

end
end Verif.Rmm
