import Verif.Ni.Low

/-!
# RMI commands do not look at what is erased

Each command, run on the visible part of a state, gives the same answer and the same visible
part of the new state as on the state itself.
-/

namespace Verif.Ni

open Rmm

section
variable {V : Obs} {P : Plat} {s : State}

theorem lowOut_some {s t : State} {r : Ret} (h : low V t = low V s) : lowOut V (some (t, r)) = lowOut V (some (s, r)) := by
  unfold lowOut
  simp only [Option.map_some, h]

theorem lowOut_low {r : Ret} : lowOut V (some (low V s, r)) = lowOut V (some (s, r)) := lowOut_some (low_idem s)

/-- Erasing before the state of the granule changes is no different from erasing after, unless a
granule with erased contents would become visible. -/
theorem lowC_lowC {a : Nat} {e e' : GSt} {c : Content}
    (h : e' = e ∨ e' = .data ∨ e' = .recAux ∨ (e ≠ .data ∧ e ≠ .recAux)) :
    lowC V a e' (lowC V a e c) = lowC V a e' c := by
  rcases h with rfl | h
  · exact lowC_idem ..
  cases c with
  | page p =>
    simp only [lowC]
    rcases h with rfl | rfl | ⟨h1, h2⟩
    · cases V.D a <;> simp
    · cases V.D a <;> simp
    · simp only [h1, h2, or_self, false_and, if_false]
  | table t => rfl
  | rd r => simp only [lowC, lowRd_idem]
  | recd q =>
    simp only [lowC]
    rw [show (lowRec (V q.rd) q).rd = q.rd from rfl, lowRec_idem]

theorem lowC_rd {a : Nat} {e : GSt} {r r' : Rd} (h : lowRd (V a) r = lowRd (V a) r') :
    lowC V a e (.rd r) = lowC V a e (.rd r') := by simp only [lowC, h]

theorem lk_st {a : Nat} {e : GSt} (h : lk P s a e = true) : s.st a = e := by
  unfold lk at h; simp at h; exact h.2

@[simp] theorem lowRd_rest (b : Bool) (r : Rd) : (lowRd b r).state = r.state ∧ (lowRd b r).recCount = r.recCount ∧
    (lowRd b r).d0 = r.d0 ∧ (lowRd b r).ipaBits = r.ipaBits ∧ (lowRd b r).nroots = r.nroots ∧
    (lowRd b r).root = r.root ∧ (lowRd b r).vmid = r.vmid ∧ (lowRd b r).lpa2 = r.lpa2 ∧
    (lowRd b r).numAux = r.numAux ∧ (lowRd b r).rim = r.rim := ⟨rfl, rfl, rfl, rfl, rfl, rfl, rfl, rfl, rfl, rfl⟩

@[simp] theorem validateStruct_low (b : Bool) (r : Rd) (a : Nat) (l : Int) :
    validateStruct (lowRd b r) a l = validateStruct r a l := rfl
@[simp] theorem validateMap_low (b : Bool) (r : Rd) (a : Nat) (l : Int) :
    validateMap (lowRd b r) a l = validateMap r a l := rfl
@[simp] theorem validateEntry_low (b : Bool) (r : Rd) (a : Nat) (l : Int) :
    validateEntry (lowRd b r) a l = validateEntry r a l := rfl
@[simp] theorem validateMapAddr_low (b : Bool) (r : Rd) (a d : Nat) :
    validateMapAddr (lowRd b r) a d = validateMapAddr r a d := rfl
@[simp] theorem inPar_low (b : Bool) (r : Rd) (a : Nat) : (lowRd b r).inPar a = r.inPar a := rfl
@[simp] theorem parSize_low (b : Bool) (r : Rd) : (lowRd b r).parSize = r.parSize := rfl
@[simp] theorem hostEntry_low (b : Bool) (r : Rd) (h : BitVec 64) (l : Int) :
    hostEntry (lowRd b r) h l = hostEntry r h l := rfl
@[simp] theorem readRegs_low (b : Bool) (r : Rd) (e : Entry) : readRegs (lowRd b r) e = readRegs r e := by
  cases e <;> rfl

/-- Same granule states, counters, address spaces and VMIDs, and contents that look alike. -/
theorem low_of {st : Nat → GSt} {rc : Nat → Nat} {pas : Nat → Pas} {vm : Nat → Bool} {m m' : Nat → Content}
    (h : ∀ a, lowC V a (st a) (m' a) = lowC V a (st a) (m a)) :
    low V ⟨st, rc, m', pas, vm⟩ = low V ⟨st, rc, m, pas, vm⟩ := by
  unfold low
  dsimp only
  congr 1
  funext a
  exact h a

/-- Both sides take the same branch. -/
theorem lowOut_ite {c c' : Prop} [Decidable c] [Decidable c'] {x y x' y' : Out} (hc : c ↔ c')
    (h1 : c' → lowOut V x = lowOut V x') (h2 : ¬ c' → lowOut V y = lowOut V y') :
    lowOut V (if c then x else y) = lowOut V (if c' then x' else y') := by
  by_cases h : c'
  · rw [if_pos (hc.mpr h), if_pos h]; exact h1 h
  · rw [if_neg (fun k => h (hc.mp k)), if_neg h]; exact h2 h

local macro "branch " h:ident : tactic =>
  `(tactic| refine lowOut_ite Iff.rfl (fun $h:ident => ?_) (fun $h:ident => ?_))

theorem granuleDelegate_low (a : Nat) :
    lowOut V (granuleDelegate P (low V s) a) = lowOut V (granuleDelegate P s a) := by
  unfold granuleDelegate
  branch h
  · branch h1
    · refine lowOut_some (low_of fun x => ?_)
      simp only [upd]
      by_cases hx : x = a
      · simp only [hx, if_true]
      · simp only [hx, if_false]; exact lowC_idem ..
    · exact lowOut_low
  · exact lowOut_low

theorem granuleUndelegate_low (a : Nat) :
    lowOut V (granuleUndelegate P (low V s) a) = lowOut V (granuleUndelegate P s a) := by
  unfold granuleUndelegate
  branch hl
  · branch h1
    · refine lowOut_some (low_of fun x => ?_)
      simp only [upd]
      by_cases hx : x = a
      · subst hx
        exact lowC_lowC (by rw [lk_st hl]; simp)
      · simp only [hx, if_false]; exact lowC_idem ..
    · rfl
  · exact lowOut_low

theorem rttCreateSt_low {rtt wg wi d dp dc : Nat} {t : Nat → Entry} {e : Entry} {r : Ret} :
    lowOut V (some (rttCreateSt (low V s) rtt wg wi t e d dp dc, r)) =
      lowOut V (some (rttCreateSt s rtt wg wi t e d dp dc, r)) := by
  refine lowOut_some (low_of fun x => ?_)
  simp only [upd]
  by_cases hg : x = wg
  · simp only [hg, if_true]
  · simp only [hg, if_false]
    by_cases hx : x = rtt
    · simp only [hx, if_true]
    · simp only [hx, if_false]; exact lowC_idem ..

theorem rttCreate_low (rdA rtt a : Nat) (lvl : Int) :
    lowOut V (rttCreate P (low V s) rdA rtt a lvl) = lowOut V (rttCreate P s rdA rtt a lvl) := by
  unfold rttCreate
  branch h0
  · rw [getRd_low]
    cases getRd s rdA with
    | none => rfl
    | some r =>
      dsimp only [Option.map_some]
      branch h1
      · branch h2
        · exact lowOut_low
        · rw [walk_low]
          cases walk s r a (dOf lvl + 1) with
          | none => rfl
          | some w =>
            dsimp only
            branch h3
            · rw [getTab_low]
              cases getTab s w.g with
              | none => rfl
              | some t =>
                dsimp only
                cases t w.i <;> dsimp only
                · exact rttCreateSt_low
                · exact rttCreateSt_low
                · branch h4
                  · exact rttCreateSt_low
                  · rfl
                · branch h4
                  · exact rttCreateSt_low
                  · rfl
                · exact lowOut_low
            · exact lowOut_low
      · exact lowOut_low
  · exact lowOut_low

/-- The contents of one granule change, to something that looks the same. -/
theorem low_upd {st : Nat → GSt} {rc : Nat → Nat} {pas : Nat → Pas} {vm : Nat → Bool} {m m' : Nat → Content} {x : Nat}
    {c c' : Content} {r : Ret} (h : ∀ a, a ≠ x → lowC V a (st a) (m' a) = lowC V a (st a) (m a))
    (hc : lowC V x (st x) c' = lowC V x (st x) c) :
    lowOut V (some (⟨st, rc, upd m' x c', pas, vm⟩, r)) = lowOut V (some (⟨st, rc, upd m x c, pas, vm⟩, r)) := by
  refine lowOut_some (low_of fun a => ?_)
  unfold upd
  by_cases h1 : a = x
  · rw [if_pos h1, if_pos h1, h1]; exact hc
  · rw [if_neg h1, if_neg h1]; exact h a h1

theorem low_keep (a : Nat) : lowC V a (s.st a) ((low V s).mem a) = lowC V a (s.st a) (s.mem a) := lowC_idem ..

theorem low_upd2 {m m' : Nat → Content} {st : Nat → GSt} {x : Nat} {c c' : Content} {a : Nat}
    (h : a ≠ x → lowC V a (st a) (m' a) = lowC V a (st a) (m a))
    (hc : a = x → lowC V x (st x) c' = lowC V x (st x) c) :
    lowC V a (st a) (upd m' x c' a) = lowC V a (st a) (upd m x c a) := by
  unfold upd
  by_cases h1 : a = x
  · rw [if_pos h1, if_pos h1, h1]; exact hc h1
  · rw [if_neg h1, if_neg h1]; exact h h1

theorem dropTableSt_low {c wg wi dp dc : Nat} {t : Nat → Entry} {e : Entry} {r : Ret} :
    lowOut V (some (dropTableSt (low V s) c wg wi t e dp dc, r)) =
      lowOut V (some (dropTableSt s c wg wi t e dp dc, r)) := by
  refine low_upd (fun a ha => low_upd2 (fun _ => ?_) (fun _ => rfl)) rfl
  rw [upd_ne _ _ _ ha]; exact low_keep a

theorem rttFold_low (rdA a : Nat) (lvl : Int) :
    lowOut V (rttFold P (low V s) rdA a lvl) = lowOut V (rttFold P s rdA a lvl) := by
  unfold rttFold
  branch h0
  · rw [getRd_low]
    cases getRd s rdA with
    | none => rfl
    | some r =>
      dsimp only [Option.map_some]
      branch h1
      · rw [walk_low]
        cases walk s r a (dOf lvl + 1) with
        | none => rfl
        | some w =>
          dsimp only
          branch h3
          · rw [getTab_low]
            cases getTab s w.g with
            | none => rfl
            | some t =>
              dsimp only
              cases t w.i with
              | table c =>
                dsimp only
                branch h4
                · rw [getTab_low]
                  cases getTab s c with
                  | none => rfl
                  | some tt =>
                    dsimp only
                    rw [low_rc]
                    cases foldEntry tt (s.rc c) (dOf lvl) with
                    | none => rfl
                    | some o =>
                      cases o with
                      | inr ret => exact lowOut_low
                      | inl o =>
                        obtain ⟨e, dp, dc⟩ := o
                        dsimp only
                        branch h5
                        · exact dropTableSt_low
                        · rfl
                · rfl
              | _ => exact lowOut_low
          · exact lowOut_low
      · exact lowOut_low
  · exact lowOut_low

theorem rttDestroy_low (rdA a : Nat) (lvl : Int) :
    lowOut V (rttDestroy P (low V s) rdA a lvl) = lowOut V (rttDestroy P s rdA a lvl) := by
  unfold rttDestroy
  branch h0
  · rw [getRd_low]
    cases getRd s rdA with
    | none => rfl
    | some r =>
      dsimp only [Option.map_some]
      branch h1
      · rw [walk_low]
        cases walk s r a (dOf lvl + 1) with
        | none => rfl
        | some w =>
          dsimp only
          rw [getTab_low]
          cases getTab s w.g with
          | none => rfl
          | some t =>
            dsimp only
            branch h3
            · cases t w.i with
              | table c =>
                dsimp only
                branch h4
                · branch h5
                  · branch h6
                    · exact dropTableSt_low
                    · rfl
                  · exact lowOut_low
                · rfl
              | _ => exact lowOut_low
            · exact lowOut_low
      · exact lowOut_low
  · exact lowOut_low

theorem rttMapUnprotected_low (rdA a : Nat) (lvl : Int) (h : BitVec 64) :
    lowOut V (rttMapUnprotected P (low V s) rdA a lvl h) = lowOut V (rttMapUnprotected P s rdA a lvl h) := by
  unfold rttMapUnprotected
  branch h0
  · branch h1
    · rw [getRd_low]
      cases getRd s rdA with
      | none => rfl
      | some r =>
        dsimp only [Option.map_some]
        rw [show (lowRd (V rdA) r).lpa2 = r.lpa2 from rfl]
        cases S2tte.hostNsIsValid r.lpa2 h lvl with
        | none => rfl
        | some b =>
          cases b with
          | false => exact lowOut_low
          | true =>
            dsimp only
            branch h2
            · branch h3
              · exact lowOut_low
              · rw [walk_low]
                cases walk s r a (dOf lvl) with
                | none => rfl
                | some w =>
                  dsimp only
                  branch h4
                  · rw [getTab_low]
                    cases getTab s w.g with
                    | none => rfl
                    | some t =>
                      dsimp only
                      cases t w.i with
                      | unassignedNs => exact low_upd (fun a _ => low_keep a) rfl
                      | _ => exact lowOut_low
                  · exact lowOut_low
            · exact lowOut_low
    · exact lowOut_low
  · exact lowOut_low

theorem rttUnmapUnprotected_low (rdA a : Nat) (lvl : Int) :
    lowOut V (rttUnmapUnprotected P (low V s) rdA a lvl) = lowOut V (rttUnmapUnprotected P s rdA a lvl) := by
  unfold rttUnmapUnprotected
  branch h0
  · branch h1
    · rw [getRd_low]
      cases getRd s rdA with
      | none => rfl
      | some r =>
        dsimp only [Option.map_some]
        branch h2
        · branch h3
          · exact lowOut_low
          · rw [walk_low]
            cases walk s r a (dOf lvl) with
            | none => rfl
            | some w =>
              dsimp only
              rw [getTab_low]
              cases getTab s w.g with
              | none => rfl
              | some t =>
                dsimp only
                branch h4
                · cases t w.i with
                  | assignedNs at_ pa => exact low_upd (fun a _ => low_keep a) rfl
                  | _ => exact lowOut_low
                · exact lowOut_low
        · exact lowOut_low
    · exact lowOut_low
  · exact lowOut_low

theorem rttReadEntry_low (rdA a : Nat) (lvl : Int) :
    lowOut V (rttReadEntry P (low V s) rdA a lvl) = lowOut V (rttReadEntry P s rdA a lvl) := by
  unfold rttReadEntry
  branch h0
  · rw [getRd_low]
    cases getRd s rdA with
    | none => rfl
    | some r =>
      dsimp only [Option.map_some]
      branch h2
      · rw [walk_low]
        cases walk s r a (dOf lvl) with
        | none => rfl
        | some w =>
          dsimp only
          rw [getTab_low]
          cases getTab s w.g with
          | none => rfl
          | some t =>
            dsimp only
            rw [readRegs_low]
            exact lowOut_low
      · exact lowOut_low
  · exact lowOut_low

theorem dataCreateSt_low {s1 s2 : State} {data wg wi : Nat} {t : Nat → Entry} {rp : Ripas} {r : Ret}
    (h1 : s2.st = s1.st) (h2 : s2.rc = s1.rc) (h3 : s2.pas = s1.pas) (h4 : s2.vmid = s1.vmid)
    (h : ∀ a, lowC V a (upd s1.st data .data a) (s2.mem a) = lowC V a (upd s1.st data .data a) (s1.mem a)) :
    lowOut V (some (dataCreateSt s2 data wg wi t rp, r)) = lowOut V (some (dataCreateSt s1 data wg wi t rp, r)) := by
  unfold dataCreateSt
  rw [h1, h2, h3, h4]
  exact low_upd (fun a _ => h a) rfl

theorem low_data {data : Nat} (a : Nat) : lowC V a (upd s.st data .data a) ((low V s).mem a) =
    lowC V a (upd s.st data .data a) (s.mem a) := by
  refine lowC_lowC ?_
  unfold upd
  split <;> simp

theorem dataCreateUnknown_low (rdA data a : Nat) :
    lowOut V (dataCreateUnknown P (low V s) rdA data a) = lowOut V (dataCreateUnknown P s rdA data a) := by
  unfold dataCreateUnknown
  branch h0
  · rw [getRd_low]
    cases getRd s rdA with
    | none => rfl
    | some r =>
      dsimp only [Option.map_some]
      branch h1
      · branch h2
        · exact lowOut_low
        · rw [walk_low]
          cases walk s r a 0 with
          | none => rfl
          | some w =>
            dsimp only
            branch h4
            · rw [getTab_low]
              cases getTab s w.g with
              | none => rfl
              | some t =>
                dsimp only
                cases t w.i with
                | unassigned rp => exact dataCreateSt_low rfl rfl rfl rfl low_data
                | _ => exact lowOut_low
            · exact lowOut_low
      · exact lowOut_low
  · exact lowOut_low

theorem dataCreate_low (rdA data a src flags : Nat) :
    lowOut V (dataCreate P (low V s) rdA data a src flags) = lowOut V (dataCreate P s rdA data a src flags) := by
  unfold dataCreate
  branch h0
  · exact lowOut_low
  branch hs
  · branch h0
    · rw [getRd_low]
      cases getRd s rdA with
      | none => rfl
      | some r =>
        dsimp only [Option.map_some]
        branch h1
        · exact lowOut_low
        branch h1
        · branch h2
          · exact lowOut_low
          · rw [walk_low]
            cases walk s r a 0 with
            | none => rfl
            | some w =>
              dsimp only
              branch h4
              · rw [getTab_low]
                cases getTab s w.g with
                | none => rfl
                | some t =>
                  dsimp only
                  cases t w.i with
                  | unassigned rp =>
                    dsimp only
                    branch h5
                    · rw [low_mem, lk_st hs]
                      cases s.mem src with
                      | page p =>
                        refine dataCreateSt_low rfl rfl rfl rfl fun x => ?_
                        refine low_upd2 (fun _ => low_upd2 (fun _ => low_data x) (fun _ => rfl)) (fun _ => lowC_rd ?_)
                        unfold lowRd
                        cases V rdA <;> rfl
                      | _ => rfl
                    · exact low_upd (fun a _ => low_keep a) rfl
                  | _ => exact lowOut_low
              · exact lowOut_low
        · exact lowOut_low
    · exact lowOut_low
  · exact lowOut_low

theorem dataDestroy_low (rdA a : Nat) :
    lowOut V (dataDestroy P (low V s) rdA a) = lowOut V (dataDestroy P s rdA a) := by
  unfold dataDestroy
  branch h0
  · rw [getRd_low]
    cases getRd s rdA with
    | none => rfl
    | some r =>
      dsimp only [Option.map_some]
      branch h1
      · rw [walk_low]
        cases walk s r a 0 with
        | none => rfl
        | some w =>
          dsimp only
          rw [getTab_low]
          cases getTab s w.g with
          | none => rfl
          | some t =>
            dsimp only
            branch h4
            · cases t w.i with
              | assigned rp pa =>
                dsimp only
                branch h5
                · refine low_upd (fun x hx => low_upd2 (fun _ => ?_) (fun _ => rfl)) rfl
                  rw [upd_ne _ _ _ hx]
                  exact low_keep x
                · rfl
              | _ => exact lowOut_low
            · exact lowOut_low
      · exact lowOut_low
  · exact lowOut_low

theorem rttInitRipas_low (rdA base top : Nat) :
    lowOut V (rttInitRipas P (low V s) rdA base top) = lowOut V (rttInitRipas P s rdA base top) := by
  unfold rttInitRipas
  branch h0
  · exact lowOut_low
  branch h0
  · rw [getRd_low]
    cases getRd s rdA with
    | none => rfl
    | some r =>
      dsimp only [Option.map_some]
      branch h1
      · branch h2
        · exact lowOut_low
        rw [walk_low]
        cases walk s r base 0 with
        | none => rfl
        | some w =>
          dsimp only
          rw [getTab_low]
          cases getTab s w.g with
          | none => rfl
          | some t =>
            dsimp only
            branch h4
            · exact lowOut_low
            have hr : ∀ l, lowC V rdA (s.st rdA) (.rd { lowRd (V rdA) r with rim := l }) =
                lowC V rdA (s.st rdA) (.rd { r with rim := l }) := by
              intro l
              refine lowC_rd ?_
              unfold lowRd
              cases V rdA <;> rfl
            branch h5
            · exact low_upd (fun x _ => low_upd2 (fun _ => low_keep x) (fun _ => rfl)) (hr _)
            · exact low_upd (fun x _ => low_upd2 (fun _ => low_keep x) (fun _ => rfl)) (hr _)
      · exact lowOut_low
  · exact lowOut_low

theorem lowRec_sr (b : Bool) (q : Rec) (x : SetRipas) :
    lowRec b { lowRec b q with sr := x } = lowRec b { q with sr := x } := by
  have := lowRec_idem b q
  unfold lowRec at this ⊢
  rw [Rec.mk.injEq] at this ⊢
  exact ⟨rfl, rfl, rfl, rfl, this.2.2.2.2.1, this.2.2.2.2.2.1, rfl, rfl⟩

theorem rttSetRipas_low (rdA recA base top : Nat) :
    lowOut V (rttSetRipas P (low V s) rdA recA base top) = lowOut V (rttSetRipas P s rdA recA base top) := by
  unfold rttSetRipas
  branch h0
  · exact lowOut_low
  branch h0
  · branch h1
    · exact lowOut_low
    rw [getRec_low]
    cases getRec s recA with
    | none => rfl
    | some c =>
      dsimp only [Option.map_some]
      branch h2
      · exact lowOut_low
      branch h3
      · exact lowOut_low
      rw [getRd_low]
      cases getRd s rdA with
      | none => rfl
      | some r =>
        dsimp only [Option.map_some]
        branch h4
        · rw [walk_low]
          cases walk s r base 0 with
          | none => rfl
          | some w =>
            dsimp only
            branch h5
            · rw [getTab_low]
              cases getTab s w.g with
              | none => rfl
              | some t =>
                dsimp only
                branch h6
                · exact lowOut_low
                branch h7
                · refine low_upd (fun x _ => low_upd2 (fun _ => low_keep x) (fun _ => rfl)) ?_
                  exact congrArg Content.recd (lowRec_sr ..)
                · exact low_upd (fun x _ => low_keep x) rfl
            · exact lowOut_low
        · rfl
  · exact lowOut_low

theorem realmActivate_low (rdA : Nat) :
    lowOut V (realmActivate P (low V s) rdA) = lowOut V (realmActivate P s rdA) := by
  unfold realmActivate
  branch h0
  · rw [getRd_low]
    cases getRd s rdA with
    | none => rfl
    | some r =>
      dsimp only [Option.map_some]
      branch h1
      · refine low_upd (fun x _ => low_keep x) (lowC_rd ?_)
        unfold lowRd
        cases V rdA <;> rfl
      · exact lowOut_low
  · exact lowOut_low

end

end Verif.Ni
