import Verif.Rmm.Ipa
import Verif.Run.PropToken
import Verif.Run.PropRipas

/-!
# C54: what a realm call reaches and what it says about memory

Here the handlers of `Verif.Run.Rsi` are joined with the walks of `Verif.Rmm.Ipa` over the tables of
the machine `Verif.Rmm`.
-/

namespace Verif.Run

open Verif.Rmm (State Rd IpaRes VE view leaf rdOf parOf PlatOk Reach Plat)

/-- `enum ripas` in the two parts of the model. -/
def ripasOf : Verif.Ripas → Ripas
  | .empty => .empty
  | .ram => .ram
  | .destroyed => .destroyed

/-- The environment of a realm call in state `s`, for a REC of the realm with descriptor `r`: the walks are
`realm_ipa_to_pa` and `realm_ipa_get_ripas` (/repo/runtime/rsi/realm_ipa_helper.c:39-172).  The handlers call
them only for arguments that meet their assertions. -/
def envOf (s : State) (r : Rd) (env : Env) : Env :=
  { env with
    walk := fun a =>
      match Rmm.ipaToPa s r a.toNat with
      | some (.success pa _ _) => .ram pa
      | some (.fail rp d) => .miss (ripasOf rp) (3 - (d : Int))
      | _ => .miss .empty 0
    getRipas := fun a e =>
      match Rmm.ipaGetRipas s r a.toNat e.toNat with
      | some (some (top, v)) => some (BitVec.ofNat 64 top, ripasOf v)
      | _ => none }

section
variable {P : Plat} {s : State}

/-- **C54.**  For an aligned protected address, the walk gives memory exactly when the page of the realm's address
space is assigned RAM, and then it is that page, a DATA granule of this realm; otherwise it gives the RIPAS of
the page and the level of the entry that the hardware walk ends at.  No assertion fails. -/
theorem C54_walk (hP : PlatOk P) (hr : Reach P s) {rd a : Nat} (hrd : s.st rd = .rd) (hal : a % 4096 = 0)
    (hp : a < parOf s rd) :
    ∃ e d v, leaf s rd a = some (e, d) ∧ view s rd a = some v ∧
      ((∃ pa g, v = .assigned .ram pa ∧ s.st pa = .data ∧ Rmm.ipaToPa s (rdOf s rd) a = some (.success pa g d)) ∨
       ((∀ pa, v ≠ .assigned .ram pa) ∧ ∃ rp, v.ripas = some rp ∧ Rmm.ipaToPa s (rdOf s rd) a = some (.fail rp d))) := by
  obtain ⟨ti, di, rl, h⟩ := hr.inv hP
  obtain ⟨e, d, v, h1, h2, h3⟩ := Rmm.ipaToPa_spec h hrd hal (by rw [Rmm.par_eq h hrd]; exact hp)
  refine ⟨e, d, v, h1, h2, ?_⟩
  rcases h3 with ⟨pa, g, h3, h4, _⟩ | h3
  · subst h3
    exact Or.inl ⟨pa, g, rfl, (Rmm.view_assigned h h2).2.2.1, h4⟩
  · exact Or.inr h3

/-- Any other address is refused. -/
theorem ipaToPa_invalid (r : Rd) {a : Nat} (h : a % 4096 ≠ 0 ∨ r.parSize ≤ a) : Rmm.ipaToPa s r a = some .invalid := by
  unfold Rmm.ipaToPa
  rw [if_pos]
  rcases h with h | h
  · exact Or.inl h
  · exact Or.inr (by unfold Rmm.Rd.inPar; simpa using h)

/-- A page that a realm call is given is a page of the realm. -/
theorem walk_ram (hP : PlatOk P) (hr : Reach P s) {rd : Nat} (hrd : s.st rd = .rd) {env : Env} {a : W} {pa : Nat}
    (hw : (envOf s (rdOf s rd) env).walk a = .ram pa) :
    a.toNat % 4096 = 0 ∧ a.toNat < parOf s rd ∧ view s rd a.toNat = some (.assigned .ram pa) ∧ s.st pa = .data ∧
      s.pas pa = .realm := by
  have hw : (match Rmm.ipaToPa s (rdOf s rd) a.toNat with
      | some (.success pa _ _) => Walk.ram pa
      | some (.fail rp d) => .miss (ripasOf rp) (3 - (d : Int))
      | _ => .miss .empty 0) = .ram pa := hw
  obtain ⟨ti, di, rl, h⟩ := hr.inv hP
  by_cases hal : a.toNat % 4096 = 0
  swap
  · rw [ipaToPa_invalid _ (Or.inl hal)] at hw; cases hw
  by_cases hp : a.toNat < parOf s rd
  swap
  · rw [ipaToPa_invalid _ (Or.inr (by rw [Rmm.par_eq h hrd]; omega))] at hw; cases hw
  obtain ⟨e, d, v, _, h2, ⟨pa', g, rfl, h3, h4⟩ | ⟨_, rp, _, h4⟩⟩ := C54_walk hP hr hrd hal hp
  · rw [h4] at hw
    obtain rfl := Walk.ram.inj hw
    exact ⟨hal, hp, h2, h3, (Rmm.C03_assigned_is_data hP hr h2).2.2.2⟩
  · rw [h4] at hw; cases hw

/-! ## The memory a realm call changes -/

/-- What a handler may write. -/
def InPage (env : Env) (w : World) (p : World × Res) : Prop :=
  ∀ b, p.1.mem b ≠ w.mem b → ∃ a pa, env.walk a = .ram pa ∧ pa ≤ b ∧ b < pa + 4096

theorem inPage_same {env : Env} {w : World} {p : World × Res} (h : p.1.mem = w.mem) : InPage env w p := by
  intro b hb; rw [h] at hb; exact absurd rfl hb

theorem tokenWrite_inPage (env : Env) (w : World) (ho : (w.rc.regs 2).toNat + (w.rc.regs 3).toNat ≤ 4096) :
    InPage env w (tokenWrite env w) := by
  unfold tokenWrite
  dsimp only
  split
  · exact inPage_same rfl
  · exact inPage_same rfl
  · rename_i pa hw
    split
    · exact inPage_same rfl
    · split
      · exact inPage_same rfl
      · rename_i a _
        have key : ∀ n, n ≤ (w.rc.regs 3).toNat → ∀ b,
            store w.mem (pa + (w.rc.regs 2).toNat) ((a.buf.drop a.copied).take n) b ≠ w.mem b →
            ∃ x y, env.walk x = .ram y ∧ y ≤ b ∧ b < y + 4096 := by
          intro n hn b hb
          refine ⟨_, _, hw, ?_⟩
          by_contra hc
          apply hb
          apply store_outside
          have : ((a.buf.drop a.copied).take n).length ≤ n := by rw [List.length_take]; omega
          omega
        have hle : (if (w.rc.regs 3).toNat < a.ccaLen then (w.rc.regs 3).toNat else a.ccaLen) ≤ (w.rc.regs 3).toNat := by
          split <;> omega
        generalize (if (w.rc.regs 3).toNat < a.ccaLen then (w.rc.regs 3).toNat else a.ccaLen) = n at hle ⊢
        split <;> exact key n hle

theorem rsiSwitch_inPage {env : Env} {w : World} {f : BitVec 32} {p : World × Res} (h : rsiSwitch env w f = some p) :
    InPage env w p := by
  unfold rsiSwitch at h
  rcases ite_or h with ⟨_, h⟩ | ⟨_, h⟩
  · obtain rfl := Option.some.inj h; exact inPage_same rfl
  rcases ite_or h with ⟨_, h⟩ | ⟨_, h⟩
  · obtain rfl := Option.some.inj h
    apply inPage_same
    unfold psci psciSuspend psciOff psciOn psciAffinity psciSystemOff psciFeatures forwardArgs psciReason
    dsimp only
    repeat' split
    all_goals rfl
  rcases ite_or h with ⟨_, h⟩ | ⟨_, h⟩
  · obtain rfl := Option.some.inj h; exact inPage_same rfl
  rcases ite_or h with ⟨_, h⟩ | ⟨_, h⟩
  · obtain rfl := Option.some.inj h; exact inPage_same rfl
  rcases ite_or h with ⟨_, h⟩ | ⟨_, h⟩
  · obtain rfl := Option.some.inj h
    apply inPage_same
    unfold rsiTokenInit
    dsimp only
    repeat' split
    all_goals rfl
  rcases ite_or h with ⟨_, h⟩ | ⟨_, h⟩
  · unfold rsiTokenContinue at h
    dsimp only at h
    rcases ite_or h with ⟨_, h⟩ | ⟨hc, h⟩
    · obtain rfl := Option.some.inj h; exact inPage_same rfl
    rcases ite_or h with ⟨_, h⟩ | ⟨_, h⟩
    · obtain rfl := Option.some.inj h; exact inPage_same rfl
    obtain ⟨r, hr, h⟩ := map_some h
    have ho : (w.rc.regs 2).toNat + (w.rc.regs 3).toNat ≤ 4096 := by
      have h2 := (w.rc.regs 2).isLt
      have h3 := (w.rc.regs 3).isLt
      have e : (w.rc.regs 2 + w.rc.regs 3).toNat = ((w.rc.regs 2).toNat + (w.rc.regs 3).toNat) % 2 ^ 64 := BitVec.toNat_add ..
      have c2 : ¬ (4096 : W).toNat < (w.rc.regs 2 + w.rc.regs 3).toNat := fun hx => hc (Or.inr (Or.inr (Or.inl hx)))
      have c3 : ¬ (w.rc.regs 2 + w.rc.regs 3).toNat < (w.rc.regs 2).toNat := fun hx => hc (Or.inr (Or.inr (Or.inr hx)))
      have e4 : (4096 : W).toNat = 4096 := rfl
      omega
    subst h
    split
    · exact inPage_same rfl
    · exact inPage_same rfl
    · exact inPage_same rfl
    · exact tokenWrite_inPage env { w with att := r.1 } ho
  rcases ite_or h with ⟨_, h⟩ | ⟨_, h⟩
  · obtain rfl := Option.some.inj h; exact inPage_same rfl
  rcases ite_or h with ⟨_, h⟩ | ⟨_, h⟩
  · obtain rfl := Option.some.inj h; exact inPage_same rfl
  rcases ite_or h with ⟨_, h⟩ | ⟨_, h⟩
  · obtain rfl := Option.some.inj h
    unfold rsiConfig
    dsimp only
    split
    · exact inPage_same rfl
    · split
      · exact inPage_same rfl
      · exact inPage_same rfl
      · rename_i pa hw
        intro b hb
        refine ⟨_, _, hw, ?_⟩
        by_contra hc
        apply hb
        show configStore env w.rc w.mem pa b = w.mem b
        unfold configStore
        rw [store_outside (by simp only [List.length_map, List.length_range]; omega),
          store_outside (by simp only [List.length_cons, List.length_nil]; omega),
          store_outside (by unfold bytes64; simp only [List.length_map, List.length_range]; omega)]
  rcases ite_or h with ⟨_, h⟩ | ⟨_, h⟩
  · obtain rfl := Option.some.inj h
    apply inPage_same
    unfold rsiIpaStateSet
    dsimp only
    split <;> rfl
  rcases ite_or h with ⟨_, h⟩ | ⟨_, h⟩
  · obtain rfl := Option.some.inj h
    apply inPage_same
    unfold rsiIpaStateGet
    dsimp only
    repeat' split
    all_goals rfl
  rcases ite_or h with ⟨_, h⟩ | ⟨_, h⟩
  · apply inPage_same
    unfold rsiHostCall at h
    dsimp only at h
    rcases ite_or h with ⟨_, h⟩ | ⟨_, h⟩
    · obtain rfl := Option.some.inj h; rfl
    rcases ite_or h with ⟨_, h⟩ | ⟨_, h⟩
    · obtain rfl := Option.some.inj h; rfl
    rcases ite_or h with ⟨_, h⟩ | ⟨_, h⟩
    · obtain rfl := Option.some.inj h; rfl
    obtain ⟨x, hx, rfl⟩ := map_some h
    split <;> rfl
  · obtain rfl := Option.some.inj h; exact inPage_same rfl

theorem rsiFinish_mem {p : World × Res} {w' : World} {b : Bool} (h : rsiFinish p = some (w', b)) : w'.mem = p.1.mem := by
  unfold rsiFinish at h
  obtain ⟨x, hx, h⟩ := map_some h
  obtain ⟨rfl, _⟩ := Prod.mk.inj h
  dsimp only at hx
  rcases ite_or hx with ⟨_, hx⟩ | ⟨_, hx⟩
  · unfold emulateS2Abort at hx
    rcases ite_or hx with ⟨_, hx⟩ | ⟨_, hx⟩
    · obtain rfl := Option.some.inj hx; rfl
    · cases hx
  · obtain rfl := Option.some.inj hx; rfl

/-- **C54.**  Whatever call a realm makes, with whatever arguments, the memory it changes is in DATA granules that back
assigned RAM pages of that realm. -/
theorem C54_writes_own_memory (hP : PlatOk P) (hr : Reach P s) {rd : Nat} (hrd : s.st rd = .rd) {env : Env} {w w' : World}
    {c : Bool} (h : realmRsi (envOf s (rdOf s rd) env) w = some (w', c)) (b : Nat) (hb : w'.mem b ≠ w.mem b) :
    ∃ a pa, a < parOf s rd ∧ view s rd a = some (.assigned .ram pa) ∧ s.st pa = .data ∧ s.pas pa = .realm ∧
      pa ≤ b ∧ b < pa + 4096 := by
  unfold realmRsi at h
  obtain ⟨p, hp, h⟩ := bind_some h
  rw [rsiFinish_mem h] at hb
  obtain ⟨a, pa, h1, h2, h3⟩ := rsiSwitch_inPage hp b hb
  obtain ⟨_, h4, h5, h6, h7⟩ := walk_ram hP hr hrd h1
  exact ⟨_, pa, h4, h5, h6, h7, h2, h3⟩

/-- **C54.**  Hence no call of one realm changes a page of another. -/
theorem C54_writes_no_other (hP : PlatOk P) (hr : Reach P s) {rd rd' : Nat} (hne : rd ≠ rd') (hrd : s.st rd = .rd) {env : Env}
    {w w' : World} {c : Bool} (h : realmRsi (envOf s (rdOf s rd) env) w = some (w', c)) {a' x : Nat} {rp : Verif.Ripas}
    (hv : view s rd' a' = some (.assigned rp x)) (b : Nat) (hb : x ≤ b ∧ b < x + 4096) : w'.mem b = w.mem b := by
  by_contra hc
  obtain ⟨a, pa, _, h2, h3, _, h5, h6⟩ := C54_writes_own_memory hP hr hrd h b hc
  obtain ⟨ti, di, rl, hi⟩ := hr.inv hP
  have hx := Rmm.view_assigned hi hv
  have ax := hP.aligned x (hi.trk x (by rw [hx.2.2.1]; simp))
  have ap := hP.aligned pa (hi.trk pa (by rw [h3]; simp))
  have : pa = x := by omega
  subst this
  exact hne (Rmm.C03_unique hP hr h2 hv).1

/-! ## RSI_IPA_STATE_GET -/

namespace Spec

/-- Legal arguments of RSI_IPA_STATE_GET: a non-empty range of whole pages in the protected half. -/
structure Range (bits b t : Nat) : Prop where
  base : b % 4096 = 0
  top : t % 4096 = 0
  lt : b < t
  par : t ≤ 2 ^ (bits - 1)

end Spec

open Spec

theorem stateGet_check {r : Rec} (hb : 32 ≤ r.ipaBits ∧ r.ipaBits ≤ 52) :
    (aligned (r.regs 1) = false ∨ inPar r (r.regs 1) = false ∨ aligned (r.regs 2) = false ∨
      inPar r (r.regs 2 - 1) = false ∨ r.regs 2 ≤ r.regs 1) ↔
    ¬ Range r.ipaBits (r.regs 1).toNat (r.regs 2).toNat := by
  have h1 := aligned_iff (r.regs 1)
  have h2 := aligned_iff (r.regs 2)
  have h3 := inPar_iff hb (r.regs 1)
  have h4 := inPar_iff hb (r.regs 2 - 1)
  have h5 : r.regs 2 ≤ r.regs 1 ↔ (r.regs 2).toNat ≤ (r.regs 1).toNat := BitVec.le_def
  have l1 := (r.regs 1).isLt
  have l2 := (r.regs 2).isLt
  have hpow : (2 : Nat) ^ (r.ipaBits - 1) < 2 ^ 64 := Nat.pow_lt_pow_right (by omega) (by omega)
  have e : (r.regs 2).toNat ≠ 0 → (r.regs 2 - 1).toNat = (r.regs 2).toNat - 1 := by
    intro h
    rw [BitVec.toNat_sub]
    have : (1 : W).toNat = 1 := rfl
    omega
  constructor
  · rintro h ⟨a1, a2, a3, a4⟩
    rcases h with h | h | h | h | h
    · rw [h1.mpr a1] at h; cases h
    · rw [h3.mpr (by omega)] at h; cases h
    · rw [h2.mpr a2] at h; cases h
    · rw [h4.mpr (by rw [e (by omega)]; omega)] at h; cases h
    · have := h5.mp h; omega
  · intro h
    by_contra hc
    rw [not_or, not_or, not_or, not_or] at hc
    obtain ⟨c1, c2, c3, c4, c5⟩ := hc
    have c5' : ¬ (r.regs 2).toNat ≤ (r.regs 1).toNat := fun hx => c5 (h5.mpr hx)
    have c4' := h4.mp (by simpa using c4)
    rw [e (by omega)] at c4'
    exact h ⟨h1.mp (by simpa using c1), h2.mp (by simpa using c3), by omega, by omega⟩

/-- **C54, RSI_IPA_STATE_GET.**  The call never fails for legal arguments: it returns SUCCESS, an address in X1 that is a
whole number of pages above the start and not above the end of the range, and in X2 the RIPAS that every page
from the start up to that address has.  It stops before the end only where a translation table ends or where
the next page has another RIPAS or is described by a lower table.  With other arguments it returns ERROR_INPUT.  Memory
and registers from X3 on keep their values. -/
theorem C54_ipa_state_get (hP : PlatOk P) (hr : Reach P s) {rd : Nat} (hrd : s.st rd = .rd) (env : Env) {w : World}
    (hb : w.rc.ipaBits = (rdOf s rd).ipaBits) (hf : fid w.rc = 0xC4000198) :
    ∃ w', realmRsi (envOf s (rdOf s rd) env) w = some (w', true) ∧ w'.mem = w.mem ∧ w'.rc.pc = w.rc.pc + 4 ∧
      (∀ j, 4 ≤ j → w'.rc.regs j = w.rc.regs j) ∧
      (¬ Range w.rc.ipaBits (w.rc.regs 1).toNat (w.rc.regs 2).toNat → w'.rc.regs 0 = RSI_ERROR_INPUT) ∧
      (Range w.rc.ipaBits (w.rc.regs 1).toNat (w.rc.regs 2).toNat →
        w'.rc.regs 0 = RSI_SUCCESS ∧ (w.rc.regs 1).toNat < (w'.rc.regs 1).toNat ∧
        (w'.rc.regs 1).toNat ≤ (w.rc.regs 2).toNat ∧ (w'.rc.regs 1).toNat % 4096 = 0 ∧
        ∃ v : Verif.Ripas, (w'.rc.regs 2).toNat = v.code ∧
          (∀ x, (w.rc.regs 1).toNat ≤ x → x < (w'.rc.regs 1).toNat → ∃ p, view s rd x = some p ∧ p.ripas = some v) ∧
          ((w'.rc.regs 1).toNat = (w.rc.regs 2).toNat ∨
            ∃ e d, leaf s rd (w.rc.regs 1).toNat = some (e, d) ∧
              ((w'.rc.regs 1).toNat % (4096 * 512 ^ (d + 1)) = 0 ∨
               (∃ p, view s rd (w'.rc.regs 1).toNat = some p ∧ p.ripas ≠ some v) ∨
               ∃ e' d', leaf s rd (w'.rc.regs 1).toNat = some (e', d') ∧ d' < d))) := by
  obtain ⟨ti, di, rl, h⟩ := hr.inv hP
  have hG := (h.rds rd hrd).geo
  have hbits : 32 ≤ w.rc.ipaBits ∧ w.rc.ipaBits ≤ 52 := by
    rw [hb]
    refine ⟨hG.bits1, le_trans hG.bits ?_⟩
    split <;> omega
  unfold realmRsi
  have hsw : rsiSwitch (envOf s (rdOf s rd) env) w (fid w.rc) = some (rsiIpaStateGet (envOf s (rdOf s rd) env) w) := by
    rw [hf]; rfl
  rw [hsw]
  have hck := stateGet_check hbits
  by_cases hR : Range w.rc.ipaBits (w.rc.regs 1).toNat (w.rc.regs 2).toNat
  swap
  · have e : rsiIpaStateGet (envOf s (rdOf s rd) env) w = (w, ret w.rc RSI_ERROR_INPUT) := by
      unfold rsiIpaStateGet
      dsimp only
      rw [if_pos (hck.mpr hR)]
    rw [e]
    refine ⟨_, rfl, rfl, rfl, ?_, fun _ => rfl, fun hx => absurd hx hR⟩
    intro j hj
    show (if j < 5 then upd (res0 w.rc) 0 RSI_ERROR_INPUT j else w.rc.regs j) = _
    by_cases h5 : j < 5
    · rw [if_pos h5]
      obtain rfl : j = 4 := by omega
      rfl
    · rw [if_neg h5]
  have hpar : (w.rc.regs 2).toNat ≤ (rdOf s rd).parSize := by
    rw [Rmm.par_eq h hrd]; unfold parOf; rw [← hb]; exact hR.par
  obtain ⟨top, v, ent, d, g1, g2, g3, g4, g5, g6, gz⟩ := Rmm.ipaGetRipas_spec h hrd hR.base hR.top hR.lt hpar
  have hpi := Rmm.par_le_ipa (rdOf s rd)
  have h52 := hG.ipa_lt
  have hl2 := (w.rc.regs 2).isLt
  -- the address that is returned
  have htop64 : top < 2 ^ 64 := by
    have hd4 : d ≤ 4 := by
      obtain ⟨d', g', k, _, hl⟩ := Rmm.leaf_ex h hrd (a := (w.rc.regs 1).toNat) (by have := hR.lt; omega)
      rw [g2] at hl
      obtain ⟨_, rfl⟩ := Prod.mk.inj (Option.some.inj hl)
      exact le_trans (k.depth h) (Rmm.RdOk.d4 h hrd)
    have : Rmm.sz d ≤ Rmm.sz 4 := by
      unfold Rmm.sz
      exact Nat.mul_le_mul_left _ (Nat.pow_le_pow_right (by omega) hd4)
    have e4 : Rmm.sz 4 = 2 ^ 48 := by decide
    omega
  have eget : (envOf s (rdOf s rd) env).getRipas (w.rc.regs 1) (w.rc.regs 2) = some (BitVec.ofNat 64 top, ripasOf v) := by
    show (match Rmm.ipaGetRipas s (rdOf s rd) (w.rc.regs 1).toNat (w.rc.regs 2).toNat with
      | some (some (top, v)) => some (BitVec.ofNat 64 top, ripasOf v)
      | _ => none) = _
    rw [g1]
  have e : rsiIpaStateGet (envOf s (rdOf s rd) env) w =
      (w, ⟨RETURN_TO_REALM, 0, upd (upd (upd (res0 w.rc) 0 RSI_SUCCESS) 1
        (if BitVec.ofNat 64 top > w.rc.regs 2 then w.rc.regs 2 else BitVec.ofNat 64 top)) 2 (ripasOf v).toW⟩) := by
    unfold rsiIpaStateGet
    dsimp only
    rw [if_neg (fun hx => hck.mp hx hR), eget]
  rw [e]
  have hmin : (if BitVec.ofNat 64 top > w.rc.regs 2 then w.rc.regs 2 else BitVec.ofNat 64 top).toNat =
      min top (w.rc.regs 2).toNat := by
    have et : (BitVec.ofNat 64 top).toNat = top := by rw [BitVec.toNat_ofNat, Nat.mod_eq_of_lt htop64]
    by_cases hc : BitVec.ofNat 64 top > w.rc.regs 2
    · rw [if_pos hc]
      have : (w.rc.regs 2).toNat < (BitVec.ofNat 64 top).toNat := hc
      omega
    · rw [if_neg hc, et]
      have : ¬ (w.rc.regs 2).toNat < (BitVec.ofNat 64 top).toNat := hc
      omega
  have hlt := hR.lt
  refine ⟨_, rfl, rfl, rfl, ?_, fun hx => absurd hR hx, fun _ => ⟨rfl, ?_⟩⟩
  · intro j hj
    show (if j < 5 then upd (upd (upd (res0 w.rc) 0 RSI_SUCCESS) 1 _) 2 _ j else w.rc.regs j) = _
    by_cases h5 : j < 5
    · rw [if_pos h5]
      obtain rfl : j = 4 := by omega
      rfl
    · rw [if_neg h5]
  · show (w.rc.regs 1).toNat < (if BitVec.ofNat 64 top > w.rc.regs 2 then w.rc.regs 2 else BitVec.ofNat 64 top).toNat ∧
      (if BitVec.ofNat 64 top > w.rc.regs 2 then w.rc.regs 2 else BitVec.ofNat 64 top).toNat ≤ _ ∧
      (if BitVec.ofNat 64 top > w.rc.regs 2 then w.rc.regs 2 else BitVec.ofNat 64 top).toNat % 4096 = 0 ∧
      ∃ v' : Verif.Ripas, (ripasOf v).toW.toNat = v'.code ∧
        (∀ x, _ → x < (if BitVec.ofNat 64 top > w.rc.regs 2 then w.rc.regs 2 else BitVec.ofNat 64 top).toNat → _) ∧
        ((if BitVec.ofNat 64 top > w.rc.regs 2 then w.rc.regs 2 else BitVec.ofNat 64 top).toNat = _ ∨
          ∃ e d, _ ∧ ((if BitVec.ofNat 64 top > w.rc.regs 2 then w.rc.regs 2 else BitVec.ofNat 64 top).toNat % _ = 0 ∨
            (∃ p, view s rd (if BitVec.ofNat 64 top > w.rc.regs 2 then w.rc.regs 2 else BitVec.ofNat 64 top).toNat = _ ∧ _) ∨
            ∃ e' d', leaf s rd (if BitVec.ofNat 64 top > w.rc.regs 2 then w.rc.regs 2 else BitVec.ofNat 64 top).toNat = _ ∧ _))
    rw [hmin]
    have ht4 := hR.top
    refine ⟨by omega, by omega, ?_, v, ?_, ?_, ?_⟩
    · rcases Nat.le_total top (w.rc.regs 2).toNat with hm | hm
      · rw [Nat.min_eq_left hm]; exact g4
      · rw [Nat.min_eq_right hm]; exact hR.top
    · cases v <;> rfl
    · intro x h1 h2
      exact g5 x h1 (by omega) (by omega)
    · by_cases hte : (w.rc.regs 2).toNat ≤ top
      · left; omega
      right
      have hm : min top (w.rc.regs 2).toNat = top := by omega
      rw [hm]
      refine ⟨ent, d, g2, ?_⟩
      rcases g6 with g6 | g6 | ⟨ent', d', g7, g8⟩
      · exact absurd g6 hte
      · left
        exact g6
      · right
        by_cases hdd : d' < d
        · exact Or.inr ⟨_, _, g7, hdd⟩
        · left
          have hne := g8.resolve_left hdd
          have hlf : ∀ c, ent' ≠ .table c := by
            obtain ⟨d2, g', k, hn, hl⟩ := Rmm.leaf_ex h hrd (a := top) (by omega)
            rw [g7] at hl
            obtain ⟨rfl, _⟩ := Prod.mk.inj (Option.some.inj hl)
            exact hn
          obtain ⟨p, hp1, hp2⟩ := Rmm.pageView_ripas d' top hlf
          exact ⟨p, by rw [Rmm.view_of_leaf g7]; exact hp1, by rw [hp2]; exact hne⟩

end

/-! ## RSI_REALM_CONFIG -/

/-- **C54.**  RSI_REALM_CONFIG for a page of memory succeeds and writes the width of the address space at 0 (eight bytes,
little endian), the hash algorithm at 8 (0 for SHA-256, 1 for SHA-512) and the 64 bytes of the personalization
value at 0x200; it changes nothing else in memory and of the registers only the results X0 to X4 and the PC. -/
theorem C54_config {env : Env} {w : World} {pa : Nat} (hf : fid w.rc = 0xC4000196) (ha : aligned (w.rc.regs 1) = true)
    (hp : inPar w.rc (w.rc.regs 1) = true) (hw : env.walk (w.rc.regs 1) = .ram pa) (hb : w.rc.ipaBits < 2 ^ 64) :
    ∃ w', realmRsi env w = some (w', true) ∧ w'.rc.regs 0 = 0 ∧ w'.rc.pc = w.rc.pc + 4 ∧
      (∀ i, 5 ≤ i → w'.rc.regs i = w.rc.regs i) ∧
      (∀ i < 8, (w'.mem (pa + i)).toNat = w.rc.ipaBits / 256 ^ i % 256) ∧
      (env.algo = .sha256 → w'.mem (pa + 8) = 0) ∧ (env.algo = .sha512 → w'.mem (pa + 8) = 1) ∧
      (∀ i < 64, w'.mem (pa + 0x200 + i) = env.rpv i) ∧
      (∀ b, (b < pa ∨ pa + 8 < b) → (b < pa + 0x200 ∨ pa + 0x240 ≤ b) → w'.mem b = w.mem b) := by
  have h1 : rsiSwitch env w (fid w.rc) = some (rsiConfig env w) := by
    rw [hf]
    unfold rsiSwitch
    simp only [show ¬ ((0xC4000196 : BitVec 32) = 0x80000000) by decide, show ¬ (((0x84000000 : BitVec 32) ≤ 0xC4000196 ∧
      (0xC4000196 : BitVec 32) ≤ 0x84000014) ∨ ((0xC4000000 : BitVec 32) ≤ 0xC4000196 ∧
      (0xC4000196 : BitVec 32) ≤ 0xC4000014)) by decide, show ¬ ((0xC4000196 : BitVec 32) = 0xC4000190) by decide,
      show ¬ ((0xC4000196 : BitVec 32) = 0xC4000191) by decide, show ¬ ((0xC4000196 : BitVec 32) = 0xC4000194) by decide,
      show ¬ ((0xC4000196 : BitVec 32) = 0xC4000195) by decide, show ¬ ((0xC4000196 : BitVec 32) = 0xC4000192) by decide,
      show ¬ ((0xC4000196 : BitVec 32) = 0xC4000193) by decide, if_false, if_true]
  have h2 : rsiConfig env w = ({ w with mem := configStore env w.rc w.mem pa }, ret w.rc RSI_SUCCESS) := by
    unfold rsiConfig
    dsimp only
    rw [if_neg (by rw [ha, hp]; simp), hw]
  have h3 : realmRsi env w = rsiFinish ({ w with mem := configStore env w.rc w.mem pa }, ret w.rc RSI_SUCCESS) := by
    unfold realmRsi
    rw [h1, h2]
    rfl
  have hl1 : (bytes64 (BitVec.ofNat 64 w.rc.ipaBits)).length = 8 := by
    unfold bytes64; simp only [List.length_map, List.length_range]
  have hl3 : ((List.range 64).map env.rpv).length = 64 := by simp only [List.length_map, List.length_range]
  rw [h3]
  refine ⟨_, rfl, rfl, rfl, ?_, ?_, ?_, ?_, ?_, ?_⟩
  · intro i hi
    show (if i < 5 then _ else w.rc.regs i) = w.rc.regs i
    rw [if_neg (by omega)]
  · intro i hi
    show (configStore env w.rc w.mem pa (pa + i)).toNat = _
    unfold configStore
    rw [store_outside (by omega), store_outside (by simp only [List.length_cons, List.length_nil]; omega),
      store_inside (by omega) (by omega)]
    unfold bytes64
    rw [show pa + i - pa = i by omega, List.getElem?_map, List.getElem?_range hi]
    show (BitVec.ofNat 8 _).toNat = _
    rw [BitVec.toNat_ofNat, BitVec.toNat_ofNat, Nat.mod_eq_of_lt hb]
  · intro ha
    show configStore env w.rc w.mem pa (pa + 8) = _
    unfold configStore
    rw [store_outside (by omega), store_inside (by omega) (by simp), ha]
    simp
  · intro ha
    show configStore env w.rc w.mem pa (pa + 8) = _
    unfold configStore
    rw [store_outside (by omega), store_inside (by omega) (by simp), ha]
    simp
  · intro i hi
    show configStore env w.rc w.mem pa (pa + 0x200 + i) = _
    unfold configStore
    rw [store_inside (by omega) (by omega), show pa + 0x200 + i - (pa + 0x200) = i by omega, List.getElem?_map,
      List.getElem?_range hi]
    rfl
  · intro b h4 h5
    show configStore env w.rc w.mem pa b = _
    unfold configStore
    rw [store_outside (by omega), store_outside (by simp only [List.length_cons, List.length_nil]; omega),
      store_outside (by omega)]

/-! ## The cases are met

The realm of `Verif.Rmm.Demo` has RIPAS RAM at 0..16KB, with memory behind the first two pages. -/

example : ∃ s, Reach Rmm.Demo.plat s ∧
    (s.st (Rmm.Demo.G 16) == .rd &&
     Rmm.ipaToPa s (rdOf s (Rmm.Demo.G 16)) 4096 == some (.success (Rmm.Demo.G 23) (Rmm.Demo.G 19) 0) &&
     Rmm.ipaToPa s (rdOf s (Rmm.Demo.G 16)) 8192 == some (.fail .ram 0) &&
     Rmm.ipaToPa s (rdOf s (Rmm.Demo.G 16)) (2 ^ 30) == some (.fail .empty 2) &&
     Rmm.ipaToPa s (rdOf s (Rmm.Demo.G 16)) (2 ^ 32) == some .invalid) = true :=
  Rmm.Demo.ex Rmm.Demo.all _ (by decide +kernel)

/-- A realm asks for the RIPAS of `[b, t)`. -/
def Demo.asks (f b t : W) : World :=
  { Demo.world with rc := { Demo.rc with regs := fun i => if i = 0 then f else if i = 1 then b else if i = 2 then t else 7 } }

/-- X0, X1 and X2 after a call. -/
def Demo.answer (s : State) (w : World) : Option (W × W × W) :=
  (realmRsi (envOf s (rdOf s (Rmm.Demo.G 16)) Demo.env) w).map fun p => (p.1.rc.regs 0, p.1.rc.regs 1, p.1.rc.regs 2)

example : ∃ s, Reach Rmm.Demo.plat s ∧
    (s.st (Rmm.Demo.G 16) == .rd && (rdOf s (Rmm.Demo.G 16)).ipaBits == Demo.rc.ipaBits &&
     Demo.answer s (Demo.asks 0xC4000198 0x1000 0x100000) == some (0, 0x4000, 1) &&
     Demo.answer s (Demo.asks 0xC4000198 0x1000 0x3000) == some (0, 0x3000, 1) &&
     Demo.answer s (Demo.asks 0xC4000198 0x4000 0x100000000) == some (0, 0x200000, 0) &&
     Demo.answer s (Demo.asks 0xC4000198 0x4000 0x100001000) == some (1, 0, 0)) = true :=
  Rmm.Demo.ex Rmm.Demo.all _ (by decide +kernel)

/-- RSI_REALM_CONFIG writes to the page the realm names, here the granule `G 23`. -/
example : ∃ s, Reach Rmm.Demo.plat s ∧
    ((realmRsi (envOf s (rdOf s (Rmm.Demo.G 16)) Demo.env) (Demo.asks 0xC4000196 0x1000 0)).any fun p =>
      p.1.rc.regs 0 == 0 && p.1.mem (Rmm.Demo.G 23) != Demo.world.mem (Rmm.Demo.G 23)) = true :=
  Rmm.Demo.ex Rmm.Demo.all _ (by decide +kernel)

/-- A realm asks for its configuration at 0x1000. -/
example : fid (Demo.asks 0xC4000196 0x1000 0).rc = 0xC4000196 ∧ aligned ((Demo.asks 0xC4000196 0x1000 0).rc.regs 1) = true ∧
    inPar (Demo.asks 0xC4000196 0x1000 0).rc ((Demo.asks 0xC4000196 0x1000 0).rc.regs 1) = true ∧
    Demo.env.walk ((Demo.asks 0xC4000196 0x1000 0).rc.regs 1) = .ram 0x80001000 ∧
    (Demo.asks 0xC4000196 0x1000 0).rc.ipaBits < 2 ^ 64 := by
  decide +kernel

end Verif.Run
