import Verif.Run.PropRipas

/-!
# C30: host calls

`RSI_HOST_CALL` from the call to the moment the realm gets the host's answer.  The page of the call structure
is the one the realm's stage 2 tables give (`Env.walk`; that it is RAM of the realm is C54).

Two things in the code are not as the property says: a page that became EMPTY while the call was
pending makes the call complete without result (`C30_lost_answer`), and a fault at level -1 fails an
assertion (`C30_level_minus_one`).
-/

namespace Verif.Run

open Spec

/-! ## Memory -/

theorem leNat_intBytes (n : Nat) : ∀ v : Nat, Meas.leNat ((List.range n).map fun i => BitVec.ofNat 8 (v / 256 ^ i)) = v % 256 ^ n := by
  induction n with
  | zero => intro v; simp [Meas.leNat, Nat.mod_one]
  | succ n ih =>
    intro v
    rw [List.range_succ_eq_map, List.map_cons, List.map_map]
    have : ((fun i => BitVec.ofNat 8 (v / 256 ^ i)) ∘ Nat.succ) = fun i => BitVec.ofNat 8 (v / 256 / 256 ^ i) := by
      funext i
      simp only [Function.comp_apply]
      rw [Nat.pow_succ', Nat.div_div_eq_div_mul]
    rw [this, Meas.leNat, ih, BitVec.toNat_ofNat, Nat.pow_zero, Nat.div_one, show 2 ^ 8 = 256 from rfl,
      Nat.pow_succ', Nat.mod_mul (a := 256)]

theorem leNat_bytes64 (v : W) : BitVec.ofNat 64 (Meas.leNat (bytes64 v)) = v := by
  unfold bytes64
  have h := leNat_intBytes 8 v.toNat
  have e : (List.range 8).map (Meas.intByte v) = (List.range 8).map fun i => BitVec.ofNat 8 (v.toNat / 256 ^ i) := rfl
  rw [e, h]
  apply BitVec.eq_of_toNat_eq
  rw [BitVec.toNat_ofNat]
  have := v.isLt
  omega

theorem store_outside {m : Nat → Byte} {a : Nat} {bs : List Byte} {p : Nat} (h : p < a ∨ a + bs.length ≤ p) :
    store m a bs p = m p := by
  unfold store
  rw [dif_neg]
  omega

theorem store_inside {m : Nat → Byte} {a : Nat} {bs : List Byte} {p : Nat} (h1 : a ≤ p) (h2 : p - a < bs.length) :
    store m a bs p = (bs[p - a]?).getD 0 := by
  unfold store
  rw [dif_pos ⟨h1, h2⟩, List.getElem?_eq_getElem h2]
  rfl

/-- Blocks of eight bytes: length and contents. -/
theorem blocks_length (f : Nat → List Byte) (hf : ∀ i, (f i).length = 8) (n : Nat) :
    ((List.range n).flatMap f).length = 8 * n := by
  induction n with
  | zero => rfl
  | succ n ih =>
    rw [List.range_succ, List.flatMap_append, List.length_append, ih, List.flatMap_singleton, hf]
    omega

theorem blocks_get (f : Nat → List Byte) (hf : ∀ i, (f i).length = 8) (n i k : Nat) (hi : i < n) (hk : k < 8) :
    ((List.range n).flatMap f)[8 * i + k]? = (f i)[k]? := by
  induction n with
  | zero => omega
  | succ n ih =>
    rw [List.range_succ, List.flatMap_append, List.flatMap_singleton]
    by_cases h : i < n
    · rw [List.getElem?_append_left (by rw [blocks_length f hf]; omega), ih h]
    · have : i = n := by omega
      subst this
      rw [List.getElem?_append_right (by rw [blocks_length f hf]; omega), blocks_length f hf]
      congr 1
      omega

theorem bytes64_length (v : W) : (bytes64 v).length = 8 := by
  unfold bytes64
  rw [List.length_map, List.length_range]

/-- What a host call leaves in memory. -/
theorem hostCallIn_mem (w : World) (e : Enter) (a : Nat) :
    (∀ i < 31, load64 (hostCallIn w e a).mem (a + 8 + 8 * i) = e.gprs i) ∧
    (∀ p, p < a + 8 ∨ a + 256 ≤ p → (hostCallIn w e a).mem p = w.mem p) := by
  have hl := blocks_length (fun i => bytes64 (e.gprs i)) (fun i => bytes64_length _) 31
  constructor
  · intro i hi
    have h2 : load (hostCallIn w e a).mem (a + 8 + 8 * i) 8 = bytes64 (e.gprs i) := by
      apply List.ext_getElem?
      intro k
      unfold load
      by_cases hk : k < 8
      · rw [List.getElem?_map, List.getElem?_range hk, Option.map_some]
        have h3 : (hostCallIn w e a).mem (a + 8 + 8 * i + k) =
            (((List.range 31).flatMap fun i => bytes64 (e.gprs i))[a + 8 + 8 * i + k - (a + 8)]?).getD 0 :=
          store_inside (by omega) (by rw [hl]; omega)
        rw [h3, show a + 8 + 8 * i + k - (a + 8) = 8 * i + k by omega,
          blocks_get _ (fun i => bytes64_length _) 31 i k hi hk,
          List.getElem?_eq_getElem (by rw [bytes64_length]; exact hk)]
        rfl
      · rw [List.getElem?_eq_none (by simp; omega), List.getElem?_eq_none (by rw [bytes64_length]; omega)]
    unfold load64
    rw [h2, leNat_bytes64]
  · intro p hp
    exact store_outside (by rw [hl]; omega)

/-! ## The request -/

theorem inPar_iff {r : Rec} (hb : 32 ≤ r.ipaBits ∧ r.ipaBits ≤ 52) (a : W) :
    inPar r a = true ↔ a.toNat < 2 ^ (r.ipaBits - 1) := by
  unfold inPar
  rw [decide_eq_true_iff, BitVec.lt_def, parSize_toNat hb]

theorem aligned256_iff (a : W) : aligned256 a = true ↔ a.toNat % 256 = 0 := by
  have h := and_low_toNat a 0xff 8 (by decide)
  unfold aligned256
  rw [beq_iff_eq, ← BitVec.toNat_inj, h]
  rfl

theorem hostCallPa_eq (r : Rec) (pa : Nat) : hostCallPa r pa = pa + (r.regs 1).toNat % 4096 := by
  unfold hostCallPa
  rw [and_low_toNat _ 0xfff 12 (by decide), show 2 ^ 12 = 4096 from rfl]

/-- A call structure that starts on a 256-byte boundary of the protected half does not cross a page. -/
theorem same_page {r : Rec} (hb : 32 ≤ r.ipaBits ∧ r.ipaBits ≤ 52) {a : W} (h1 : a.toNat % 256 = 0)
    (h2 : a.toNat < 2 ^ (r.ipaBits - 1)) : a >>> 12 = (a + 256 - 1) >>> 12 := by
  have hp : 2 ^ (r.ipaBits - 1) ≤ 2 ^ 51 := Nat.pow_le_pow_right (by omega) (by omega)
  apply BitVec.eq_of_toNat_eq
  have e : (a + 256 - 1).toNat = a.toNat + 255 := by
    rw [BitVec.toNat_sub, BitVec.toNat_add, show (256 : W).toNat = 256 from rfl, show (1 : W).toNat = 1 from rfl]
    omega
  rw [BitVec.toNat_ushiftRight, BitVec.toNat_ushiftRight, e, Nat.shiftRight_eq_div_pow, Nat.shiftRight_eq_div_pow]
  omega

/-- The realm is answered at once with ERROR_INPUT and nothing else changes. -/
structure InputError (w w' : World) : Prop where
  x0 : w'.rc.regs 0 = RSI_ERROR_INPUT
  regs : ∀ j, 4 ≤ j → w'.rc.regs j = w.rc.regs j
  pc : w'.rc.pc = w.rc.pc + 4
  call : w'.rc.hostCall = w.rc.hostCall
  ex : w'.ex = w.ex
  mem : w'.mem = w.mem
  ripas : w'.rc.ripas = w.rc.ripas

theorem finish_input (w : World) :
    ∃ w', rsiFinish (w, ret w.rc RSI_ERROR_INPUT) = some (w', true) ∧ InputError w w' := by
  refine ⟨_, rfl, rfl, ?_, rfl, rfl, rfl, rfl, rfl⟩
  intro j hj
  show (if j < 5 then _ else w.rc.regs j) = _
  by_cases h5 : j < 5
  · have : j = 4 := by omega
    subst this
    rfl
  · rw [if_neg h5]

/-- The realm's argument: 256-byte aligned and protected. -/
def Spec.CallArgs (bits a : Nat) : Prop := a % 256 = 0 ∧ a < 2 ^ (bits - 1)

/-- **C30, the request.**  An argument that is not legal, or whose page has RIPAS EMPTY, gives ERROR_INPUT.  If the page
is there the host sees exactly the 31 registers and the immediate of the structure, which is inside the page; the
realm's registers and memory are unchanged.  Otherwise the host is told a translation fault, and the
instruction will be executed again. -/
theorem C30_request_partial (env : Env) {w : World} (hb : 32 ≤ w.rc.ipaBits ∧ w.rc.ipaBits ≤ 52)
    (hf : fid w.rc = 0xC4000199) :
    (¬ CallArgs w.rc.ipaBits (w.rc.regs 1).toNat → ∃ w', realmRsi env w = some (w', true) ∧ InputError w w') ∧
    (CallArgs w.rc.ipaBits (w.rc.regs 1).toNat →
      (w.rc.regs 1).toNat % 4096 + 256 ≤ 4096 ∧
      (∀ l, env.walk (w.rc.regs 1 &&& ~~~0xfff) = .miss .empty l → ∃ w', realmRsi env w = some (w', true) ∧ InputError w w') ∧
      (∀ pa, env.walk (w.rc.regs 1 &&& ~~~0xfff) = .ram pa →
        ∃ w', realmRsi env w = some (w', false) ∧ w'.ex.reason = EXIT_HOST_CALL ∧
          (∀ i < 31, w'.ex.gprs i = load64 w.mem (pa + (w.rc.regs 1).toNat % 4096 + 8 + 8 * i)) ∧
          w'.ex.imm = BitVec.ofNat 32 (Meas.leNat (load w.mem (pa + (w.rc.regs 1).toNat % 4096) 4)) ∧
          w'.ex = { w.ex with reason := w'.ex.reason, gprs := w'.ex.gprs, imm := w'.ex.imm } ∧
          w'.mem = w.mem ∧ w'.rc = { w.rc with hostCall := true, pc := w.rc.pc + 4 }) ∧
      (∀ r l, env.walk (w.rc.regs 1 &&& ~~~0xfff) = .miss r l → r ≠ .empty → 0 ≤ l → l ≤ 3 →
        ∃ w', realmRsi env w = some (w', false) ∧ w'.ex.reason = EXIT_SYNC ∧ w'.ex.esr.toNat = 0x90000004 + l ∧
          w'.ex.hpfar.toNat = (w.rc.regs 1).toNat / 256 ∧ w'.ex.gprs = w.ex.gprs ∧ w'.ex.imm = w.ex.imm ∧
          w'.mem = w.mem ∧ w'.rc = w.rc)) := by
  have hsw : rsiSwitch env w (fid w.rc) = rsiHostCall env w := by
    rw [hf]; rfl
  have h256 := aligned256_iff (w.rc.regs 1)
  have hpar := inPar_iff hb (w.rc.regs 1)
  unfold realmRsi
  rw [hsw]
  constructor
  · intro hn
    have e : rsiHostCall env w = some (w, ret w.rc RSI_ERROR_INPUT) := by
      unfold rsiHostCall
      dsimp only
      by_cases h1 : aligned256 (w.rc.regs 1) = false
      · rw [if_pos h1]
      rw [if_neg h1]
      by_cases h2 : w.rc.regs 1 >>> 12 ≠ (w.rc.regs 1 + 256 - 1) >>> 12
      · rw [if_pos h2]
      rw [if_neg h2]
      by_cases h3 : inPar w.rc (w.rc.regs 1) = false
      · rw [if_pos h3]
      · exact absurd ⟨h256.mp (by simpa using h1), hpar.mp (by simpa using h3)⟩ hn
    rw [e]
    exact finish_input w
  · intro ha
    have e : rsiHostCall env w = (hostCallWalk env w.rc).map fun
        | .miss .empty _ => (w, ret w.rc RSI_ERROR_INPUT)
        | .miss _ l => (w, s2fault w.rc l)
        | .ram pa => (hostCallOut w (hostCallPa w.rc pa), ⟨EXIT_TO_HOST, 0, res0 w.rc⟩) := by
      unfold rsiHostCall
      dsimp only
      rw [if_neg (by rw [h256.mpr ha.1]; simp), if_neg (by simpa using same_page hb ha.1 ha.2),
        if_neg (by rw [hpar.mpr ha.2]; simp)]
      congr 1
    have ew : hostCallWalk env w.rc = some (env.walk (w.rc.regs 1 &&& ~~~0xfff)) := by
      unfold hostCallWalk
      rw [if_pos (hpar.mpr ha.2)]
    rw [e, ew]
    refine ⟨by have := ha.1; omega, ?_, ?_, ?_⟩
    · intro l hl
      rw [hl]
      exact finish_input w
    · intro pa hpa
      rw [hpa]
      refine ⟨_, rfl, rfl, ?_, ?_, rfl, rfl, rfl⟩
      · intro i hi
        show (if i < 31 then load64 w.mem (hostCallPa w.rc pa + 8 + 8 * i) else _) = _
        rw [if_pos hi, hostCallPa_eq]
      · show BitVec.ofNat 32 (Meas.leNat (load w.mem (hostCallPa w.rc pa) 4)) = _
        rw [hostCallPa_eq]
    · intro r l hl hne h0 h3
      rw [hl]
      have hsel : ((some (Walk.miss r l)).map fun
          | .miss .empty _ => (w, ret w.rc RSI_ERROR_INPUT)
          | .miss _ l => (w, s2fault w.rc l)
          | .ram pa => (hostCallOut w (hostCallPa w.rc pa), (⟨EXIT_TO_HOST, 0, res0 w.rc⟩ : Res))) =
          some (w, s2fault w.rc l) := by
        cases r with
        | empty => exact absurd rfl hne
        | ram => rfl
        | destroyed => rfl
      rw [hsel]
      have hlev : BitVec.ofInt 64 l ≤ (3 : W) := by
        rcases (by omega : l = 0 ∨ l = 1 ∨ l = 2 ∨ l = 3) with rfl | rfl | rfl | rfl <;> decide
      have hab : emulateS2Abort w (BitVec.ofInt 64 l) = some { w with ex := { w.ex with
          esr := 0x90000000 ||| (4 + BitVec.ofInt 64 l), far := 0, hpfar := w.rc.regs 1 >>> 8, reason := EXIT_SYNC } } := by
        unfold emulateS2Abort
        rw [if_pos hlev]
      have hfin : rsiFinish (w, s2fault w.rc l) = (emulateS2Abort w (BitVec.ofInt 64 l)).map (·, false) := rfl
      refine ⟨_, (congrArg (Option.bind · rsiFinish) rfl).trans (hfin.trans (congrArg _ hab)), rfl, ?_, ?_, rfl, rfl, rfl, rfl⟩
      · rcases (by omega : l = 0 ∨ l = 1 ∨ l = 2 ∨ l = 3) with rfl | rfl | rfl | rfl <;> rfl
      · show (w.rc.regs 1 >>> 8).toNat = _
        rw [BitVec.toNat_ushiftRight, Nat.shiftRight_eq_div_pow]

/-! ## The answer -/

/-- **C30, the answer.**  When a REC with a pending host call is run again and the page is there, the structure
has the host's 31 registers, X0 is SUCCESS, and no other memory, no other register and not the PC change. -/
theorem C30_answer {c : Call} {w : World} {o : Out} (hi : Inv w.rc) (h : recEnter c w = some o) (hran : o.ran = true)
    (hc : w.rc.hostCall = true) {pa : Nat} (hw : c.env.walk (w.rc.regs 1 &&& ~~~0xfff) = .ram pa) :
    (w.rc.regs 1).toNat % 4096 + 256 ≤ 4096 ∧
    ∃ w1, runRec c w1 = some o ∧ w1.rc.hostCall = false ∧ w1.rc.pc = w.rc.pc ∧ w1.rc.pstate = w.rc.pstate ∧
      w1.rc.regs 0 = RSI_SUCCESS ∧ (∀ j, j ≠ 0 → w1.rc.regs j = w.rc.regs j) ∧
      (∀ i < 31, load64 w1.mem (pa + (w.rc.regs 1).toNat % 4096 + 8 + 8 * i) = c.enter.gprs i) ∧
      ∀ p, p < pa + (w.rc.regs 1).toNat % 4096 + 8 ∨ pa + (w.rc.regs 1).toNat % 4096 + 256 ≤ p → w1.mem p = w.mem p := by
  refine ⟨by have := (hi.call hc).2.2.1; omega, ?_⟩
  obtain ⟨r1, r2, r3, ⟨w1, b⟩, hp, hb, hrun⟩ := recEnter_ran h hran
  simp only at hb
  subst hb
  have hr := path_call hi hp hc
  have hregs : r3.regs = w.rc.regs := by rw [hr]
  obtain ⟨_, _, _, _, hh, hcase⟩ := completeHostCall_true hp.call
  have hc3 : r3.hostCall = true := by rw [hr]; exact hc
  rcases hcase with ⟨h1, _⟩ | ⟨_, _, ⟨l, h1, _⟩ | ⟨pa', h1, h2⟩⟩
  · exact absurd (hc3.symm.trans h1) (by decide)
  · have h1' : c.env.walk (r3.regs 1 &&& ~~~0xfff) = .miss .empty l := h1
    rw [hregs, hw] at h1'
    simp at h1'
  · have h1' : c.env.walk (r3.regs 1 &&& ~~~0xfff) = .ram pa' := h1
    rw [hregs, hw] at h1'
    obtain rfl := (Walk.ram.inj h1')
    have ha : hostCallPa r3 pa = pa + (w.rc.regs 1).toNat % 4096 := by rw [hostCallPa_eq, hregs]
    have hm := hostCallIn_mem { withGic c w with rc := r3 } c.enter (hostCallPa r3 pa)
    rw [ha] at hm
    have hmem : w1.mem = (hostCallIn { withGic c w with rc := r3 } c.enter (pa + (w.rc.regs 1).toNat % 4096)).mem := by
      rw [h2, ← ha]
    have hreg1 : w1.rc.regs = upd w.rc.regs 0 RSI_SUCCESS := by rw [h2, ← hregs]; rfl
    refine ⟨w1, hrun, hh, ?_, ?_, ?_, ?_, ?_, ?_⟩
    · rw [h2]; show r3.pc = _; rw [hr]
    · rw [h2]; show r3.pstate = _; rw [hr]
    · rw [hreg1]; rfl
    · intro j hj
      rw [hreg1]
      exact if_neg hj
    · rw [hmem]; exact hm.1
    · rw [hmem]; exact hm.2

/-- **C30.**  A pending call is not completed, and the REC does not run, while its page is not there: the host is told
the fault, and registers, memory and the pending call stay. -/
theorem C30_not_yet {c : Call} {w : World} {o : Out} (hi : Inv w.rc) (h : recEnter c w = some o)
    (hc : w.rc.hostCall = true) {r : Ripas} {l : Int} (hw : c.env.walk (w.rc.regs 1 &&& ~~~0xfff) = .miss r l)
    (hr : r ≠ .empty) (hl : -1 ≤ l ∧ l ≤ 3) :
    o.ran = false ∧ o.w.rc.regs = w.rc.regs ∧ o.w.rc.pc = w.rc.pc ∧ o.w.rc.hostCall = true ∧ o.w.mem = w.mem ∧
    ∀ x, o.host = some x → x.reason = EXIT_SYNC ∧ x.esr.toNat = 0x90000004 + l ∧
      x.hpfar.toNat = (w.rc.regs 1).toNat / 256 ∧ x.gprs = fun _ => 0 := by
  rcases recEnter_cases h with ⟨h0, hh, h1, _⟩ | ⟨h0, hh, _, _, h1, _⟩ | ⟨h0, hh, _, _, r1, h1, h2, h3⟩ |
    ⟨r1, r2, r3, ⟨w1, b⟩, hp, ⟨hb, h1⟩ | ⟨hb, h1⟩⟩
  · rw [h1]; exact ⟨h0, rfl, rfl, hc, rfl, fun x hx => by rw [hh] at hx; simp at hx⟩
  · rw [h1]; exact ⟨h0, rfl, rfl, hc, rfl, fun x hx => by rw [hh] at hx; simp at hx⟩
  · rw [h1]
    rcases (completeSea_some h2).2.2 with ⟨_, h4⟩ | ⟨h4, _⟩
    · rw [h4]; exact ⟨h0, rfl, rfl, hc, rfl, fun x hx => by rw [hh] at hx; simp at hx⟩
    · have := completeMmio_none h3
      unfold Enter.injectSea at h4
      exact absurd (h4.symm.trans this.2.1) (by decide)
  · simp only at hb
    subst hb
    have hr3 := path_call hi hp hc
    have hregs : r3.regs = w.rc.regs := by rw [hr3]
    obtain ⟨_, _, r', l', hw', _, hab⟩ := completeHostCall_false hp.call
    have hw' : c.env.walk (r3.regs 1 &&& ~~~0xfff) = .miss r' l' := hw'
    rw [hregs, hw] at hw'
    obtain ⟨rfl, rfl⟩ := Walk.miss.inj hw'
    unfold emulateS2Abort at hab
    rcases ite_or hab with ⟨hlev, hab⟩ | ⟨_, hab⟩
    · have hab := (Option.some.inj hab).symm
      rw [h1, leave_w, leave_ran]
      refine ⟨rfl, ?_, ?_, ?_, ?_, ?_⟩
      · rw [hab]; exact hregs
      · rw [hab]; show r3.pc = _; rw [hr3]
      · rw [hab]; show r3.hostCall = _; rw [hr3]; exact hc
      · rw [hab]; rfl
      · intro x hx
        have := leave_host hx
        rw [this, hab]
        refine ⟨rfl, ?_, ?_, rfl⟩
        · rcases (by omega : l = -1 ∨ l = 0 ∨ l = 1 ∨ l = 2 ∨ l = 3) with rfl | rfl | rfl | rfl | rfl
          · exact absurd hlev (by decide)
          all_goals rfl
        · show (r3.regs 1 >>> 8).toNat = _
          rw [hregs, BitVec.toNat_ushiftRight, Nat.shiftRight_eq_div_pow]
    · simp at hab
  · simp only at hb
    subst hb
    exfalso
    have hr3 := path_call hi hp hc
    have hregs : r3.regs = w.rc.regs := by rw [hr3]
    have hc3 : r3.hostCall = true := by rw [hr3]; exact hc
    obtain ⟨_, _, _, _, hh, hcase⟩ := completeHostCall_true hp.call
    rcases hcase with ⟨h1, _⟩ | ⟨_, _, ⟨l, h1, _⟩ | ⟨pa', h1, h2⟩⟩
    · exact absurd (hc3.symm.trans h1) (by decide)
    · have h1' : c.env.walk (r3.regs 1 &&& ~~~0xfff) = .miss .empty l := h1
      rw [hregs, hw] at h1'
      exact hr (Walk.miss.inj h1').1
    · have h1' : c.env.walk (r3.regs 1 &&& ~~~0xfff) = .ram pa' := h1
      rw [hregs, hw] at h1'
      simp at h1'

/-- **Deviation.**  If the page has RIPAS EMPTY when the REC is run again the call counts as complete: the realm resumes
behind it with every register as it was, so X0 still has the function identifier and the host's answer is lost. -/
theorem C30_lost_answer {c : Call} {w : World} {o : Out} (hi : Inv w.rc) (h : recEnter c w = some o)
    (hran : o.ran = true) (hc : w.rc.hostCall = true) {l : Int}
    (hw : c.env.walk (w.rc.regs 1 &&& ~~~0xfff) = .miss .empty l) :
    ∃ w1, runRec c w1 = some o ∧ w1.rc.hostCall = false ∧ w1.rc.pc = w.rc.pc ∧ w1.rc.regs = w.rc.regs ∧ w1.mem = w.mem := by
  obtain ⟨r1, r2, r3, ⟨w1, b⟩, hp, hb, hrun⟩ := recEnter_ran h hran
  simp only at hb
  subst hb
  have hr := path_call hi hp hc
  have hregs : r3.regs = w.rc.regs := by rw [hr]
  obtain ⟨_, _, _, _, hh, hcase⟩ := completeHostCall_true hp.call
  have hc3 : r3.hostCall = true := by rw [hr]; exact hc
  rcases hcase with ⟨h1, _⟩ | ⟨_, _, ⟨l, h1, h2⟩ | ⟨pa', h1, h2⟩⟩
  · exact absurd (hc3.symm.trans h1) (by decide)
  · refine ⟨w1, hrun, hh, ?_, ?_, ?_⟩
    · rw [h2]; show r3.pc = _; rw [hr]
    · rw [h2]; exact hregs
    · rw [h2]; rfl
  · have h1' : c.env.walk (r3.regs 1 &&& ~~~0xfff) = .ram pa' := h1
    rw [hregs, hw] at h1'
    simp at h1'

/-! ## Concrete cases -/

def Demo.calls (x1 : W) : Nat → W := fun i => if i = 0 then 0xC4000199 else if i = 1 then x1 else 0

/-- Byte `a` of the demo memory is `a mod 256`, so the register at offset 0x108 of the page reads 0x0F0E0D0C0B0A0908. -/
example :
    let e := Demo.ev .sync ⟨0x5E000000, 0, 0⟩ (Demo.calls 0x1100)
    seen (·.reason) e = some EXIT_HOST_CALL ∧ seen (·.gprs 0) e = some 0x0F0E0D0C0B0A0908 ∧
    seen (·.gprs 30) e = some 0xFFFEFDFCFBFAF9F8 ∧ seen (·.imm) e = some 0x03020100 := by
  decide +kernel

/-- A REC with a pending host call. -/
def Demo.calling (x1 : W) : World :=
  { Demo.world with rc := { Demo.rc with regs := Demo.calls x1, hostCall := true, lastEsr := 0x5E000000 } }

example : Inv (Demo.calling 0x1100).rc ∧ Inv (Demo.calling 0x5000).rc ∧ Inv (Demo.calling 0x2000).rc := by
  refine ⟨⟨by decide, fun _ => by decide, fun h => absurd rfl h, fun h => absurd h (by decide), fun h => absurd h (by decide)⟩,
    ⟨by decide, fun _ => by decide, fun h => absurd rfl h, fun h => absurd h (by decide), fun h => absurd h (by decide)⟩,
    ⟨by decide, fun _ => by decide, fun h => absurd rfl h, fun h => absurd h (by decide), fun h => absurd h (by decide)⟩⟩

/-- The first completes, the second loses its answer, the third waits. -/
example :
    let c := Demo.call 0 7 [Demo.ev .irq ⟨0, 0, 0⟩ fun _ => 0]
    ((recEnter c (Demo.calling 0x1100)).map (·.ran)) = some true ∧
    ((recEnter c (Demo.calling 0x5000)).map (·.ran)) = some true ∧ (Demo.calling 0x5000).rc.regs 0 ≠ RSI_SUCCESS ∧
    ((recEnter c (Demo.calling 0x2000)).map (·.ran)) = some false := by
  decide +kernel

/-- **Deviation.**  A fault at level -1, possible with 52-bit addresses, fails the assertion of
`emulate_stage2_data_abort`, whose argument is unsigned. -/
theorem C30_level_minus_one :
    let env := { Demo.env with walk := fun _ => .miss .ram (-1) }
    realmRsi env { Demo.world with rc := { Demo.rc with regs := Demo.calls 0x1100 } } = none := by
  rfl

end Verif.Run
