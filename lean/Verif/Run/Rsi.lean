import Verif.Run.Exit

/-!
# SMC calls of a realm

Model of `handle_realm_rsi` (/repo/runtime/core/exit.c:384-474), the RSI handlers in
/repo/runtime/rsi/ and the realm side of PSCI in /repo/runtime/rsi/psci.c:1-321.

Locking, mapping of granules and logging are left out (C40, C45, C47).
-/

namespace Verif.Run

/-- `res.smc_res` at the start: zero, with X4 preserved: exit.c:386-400. -/
def res0 (r : Rec) : Nat → W := fun i => if i = 4 then r.regs 4 else 0

/-- A result that only returns `v` in X0 to the realm. -/
def ret (r : Rec) (v : W) : Res := ⟨RETURN_TO_REALM, 0, upd (res0 r) 0 v⟩

/-- Return codes: /repo/lib/smc/include/smc-rsi.h:48-63. -/
def RSI_SUCCESS : W := 0
def RSI_ERROR_INPUT : W := 1
def RSI_ERROR_STATE : W := 2
def RSI_INCOMPLETE : W := 3
def RSI_ERROR_UNKNOWN : W := 4

/-- `STAGE_2_TRANSLATION_FAULT` with the level reached by a walk. -/
def s2fault (r : Rec) (level : Int) : Res := ⟨S2_FAULT, BitVec.ofInt 64 level, res0 r⟩

/-- The address is 256-byte aligned: `ALIGNED(ipa, sizeof(struct rsi_host_call))`. -/
def aligned256 (a : W) : Bool := a &&& 0xff == 0

/-! ## PSCI -/

/-- Return values: /repo/runtime/include/psci.h:79-92. -/
def PSCI_SUCCESS : W := 0
def PSCI_NOT_SUPPORTED : W := -1
def PSCI_INVALID_PARAMS : W := -2
def PSCI_DENIED : W := -3
def PSCI_ALREADY_ON : W := -4
def PSCI_INVALID_ADDRESS : W := -9

/-- `forward_args_to_host`: psci.c:20-34. -/
def forwardArgs (n : Nat) (w : World) : World :=
  { w with ex := { w.ex with gprs := fun i => if i < n then w.rc.regs i else if i < 31 then 0 else w.ex.gprs i } }

/-- `exit_reason` set at the end of `handle_psci`: psci.c:318-320. -/
def psciReason (w : World) : World := { w with ex := { w.ex with reason := EXIT_PSCI } }

/-- `psci_cpu_suspend`: psci.c:44-63. -/
def psciSuspend (w : World) : World × Res :=
  (psciReason (forwardArgs 1 w), ⟨UPDATE_EXIT, 0, upd (res0 w.rc) 0 PSCI_SUCCESS⟩)

/-- `psci_cpu_off`: psci.c:65-92. -/
def psciOff (w : World) : World × Res :=
  (psciReason (forwardArgs 1 { w with rc := { w.rc with runnable := false } }),
   ⟨UPDATE_EXIT, 0, upd (res0 w.rc) 0 PSCI_SUCCESS⟩)

/-- `psci_cpu_on`: psci.c:123-167. -/
def psciOn (env : Env) (w : World) : World × Res :=
  if inPar w.rc (w.rc.regs 2) = false then (w, ret w.rc PSCI_INVALID_ADDRESS)
  else if env.recCount ≤ Mpidr.el1ToIdx (w.rc.regs 1) then (w, ret w.rc PSCI_INVALID_PARAMS)
  else if Mpidr.el1ToIdx (w.rc.regs 1) = w.rc.idx then (w, ret w.rc PSCI_ALREADY_ON)
  else (psciReason (forwardArgs 2 { w with rc := { w.rc with pending := true } }), ⟨EXIT_TO_HOST, 0, res0 w.rc⟩)

/-- `psci_affinity_info`: psci.c:169-213. -/
def psciAffinity (env : Env) (w : World) : World × Res :=
  if w.rc.regs 2 ≠ 0 then (w, ret w.rc PSCI_INVALID_PARAMS)
  else if env.recCount ≤ Mpidr.el1ToIdx (w.rc.regs 1) then (w, ret w.rc PSCI_INVALID_PARAMS)
  else if Mpidr.el1ToIdx (w.rc.regs 1) = w.rc.idx then (w, ret w.rc 0)
  else (psciReason (forwardArgs 2 { w with rc := { w.rc with pending := true } }), ⟨EXIT_TO_HOST, 0, res0 w.rc⟩)

/-- `psci_system_off_reset` and `system_off_reboot`: psci.c:221-253. -/
def psciSystemOff (w : World) : World × Res :=
  (psciReason (forwardArgs 1 { w with state := .systemOff }), ⟨EXIT_TO_HOST, 0, res0 w.rc⟩)

/-- The functions `psci_features` reports: psci.c:255-278. -/
def psciKnown (f : BitVec 32) : Bool :=
  f == 0x84000001 || f == 0xC4000001 || f == 0x84000002 || f == 0x84000003 || f == 0xC4000003 || f == 0x84000004 ||
  f == 0xC4000004 || f == 0x84000008 || f == 0x84000009 || f == 0x8400000A || f == 0x80000000

/-- `psci_features`: psci.c:255-278. -/
def psciFeatures (w : World) : World × Res :=
  (w, ret w.rc (if psciKnown ((w.rc.regs 1).setWidth 32) then PSCI_SUCCESS else PSCI_NOT_SUPPORTED))

/-- `handle_psci`: psci.c:280-321.  It looks at X0 itself, so a call with the SVE hint bit is not
supported. -/
def psci (env : Env) (w : World) : World × Res :=
  let f : BitVec 32 := (w.rc.regs 0).setWidth 32
  if f = 0x84000000 then (w, ret w.rc 0x10001)
  else if f = 0x84000001 ∨ f = 0xC4000001 then psciSuspend w
  else if f = 0x84000002 then psciOff w
  else if f = 0x84000003 ∨ f = 0xC4000003 then psciOn env w
  else if f = 0x84000004 ∨ f = 0xC4000004 then psciAffinity env w
  else if f = 0x84000008 ∨ f = 0x84000009 then psciSystemOff w
  else if f = 0x8400000A then psciFeatures w
  else (w, ret w.rc PSCI_NOT_SUPPORTED)

/-! ## RSI -/

/-- `handle_rsi_version`: /repo/runtime/rsi/system.c:13-25. -/
def rsiVersion (w : World) : World × Res :=
  (w, ⟨RETURN_TO_REALM, 0,
    upd (upd (upd (res0 w.rc) 0 (if w.rc.regs 1 ≠ 0x10000 then RSI_ERROR_INPUT else RSI_SUCCESS)) 1 0x10000) 2 0x10000⟩)

/-- `handle_rsi_features`: /repo/runtime/rsi/feature.c. -/
def rsiFeatures (w : World) : World × Res :=
  (w, ⟨RETURN_TO_REALM, 0, upd (upd (res0 w.rc) 0 RSI_SUCCESS) 1 0⟩)

/-- `handle_rsi_measurement_extend`: /repo/runtime/rsi/realm_attest.c:379-440, see `Meas.extendH`. -/
def rsiExtend (env : Env) (w : World) : World × Res :=
  let m := Meas.extendH env.hash env.algo ⟨w.rc.regs, w.slots⟩
  ({ w with slots := m.1.slots }, ret w.rc m.2)

/-- `handle_rsi_measurement_read`: realm_attest.c:442-499, see `Meas.readH`. -/
def rsiRead (env : Env) (w : World) : World × Res :=
  let m := Meas.readH env.algo ⟨w.rc.regs, w.slots⟩
  ({ w with rc := { w.rc with regs := m.1.regs } }, ⟨RETURN_TO_REALM, 0, m.2⟩)

/-- The bytes `handle_rsi_realm_config` (/repo/runtime/rsi/config.c:14-77) writes, by offset in
`struct rsi_realm_config` (smc-rsi.h): IPA width at 0, hash algorithm at 8, personalization value at 0x200. -/
def configStore (env : Env) (r : Rec) (m : Nat → Byte) (pa : Nat) : Nat → Byte :=
  store (store (store m pa (bytes64 (BitVec.ofNat 64 r.ipaBits)))
    (pa + 8) [match env.algo with | .sha256 => 0 | .sha512 => 1])
    (pa + 0x200) ((List.range 64).map env.rpv)

/-- `handle_rsi_realm_config`: config.c:14-77. -/
def rsiConfig (env : Env) (w : World) : World × Res :=
  let ipa := w.rc.regs 1
  if aligned ipa = false ∨ inPar w.rc ipa = false then (w, ret w.rc RSI_ERROR_INPUT)
  else match env.walk ipa with
    | .miss .empty _ => (w, ret w.rc RSI_ERROR_INPUT)
    | .miss _ l => (w, s2fault w.rc l)
    | .ram pa => ({ w with mem := configStore env w.rc w.mem pa }, ret w.rc RSI_SUCCESS)

/-- `region_in_rec_par`, `region_is_contained`, `addr_is_contained`: realm.h:149-204. -/
def regionInPar (r : Rec) (base top : W) : Bool :=
  let p := parSize r
  if base > top - 1 then false
  else (!(0 > p - 1) && base ≥ 0 && base ≤ p - 1) && (!(0 > p - 1) && top - 1 ≥ 0 && top - 1 ≤ p - 1)

/-- `handle_rsi_ipa_state_set`: /repo/runtime/rsi/memory.c:12-45.  The two enumerations are stored in
32 bits. -/
def rsiIpaStateSet (w : World) : World × Res :=
  let base := w.rc.regs 1
  let top := w.rc.regs 2
  let v : BitVec 32 := (w.rc.regs 3).setWidth 32
  if v > 1 ∨ aligned base = false ∨ aligned top = false ∨ top ≤ base ∨ regionInPar w.rc base top = false then
    (w, ret w.rc RSI_ERROR_INPUT)
  else
    ({ w with
        rc := { w.rc with ripas := { w.rc.ripas with base := base, top := top, addr := base, val := v
                                                     destroyed := (w.rc.regs 4).setWidth 32 } }
        ex := { w.ex with reason := EXIT_RIPAS, ripasBase := base, ripasTop := top, ripasVal := v.setWidth 8 } },
     ⟨UPDATE_EXIT, 0, upd (upd (res0 w.rc) 0 RSI_SUCCESS) 1 top⟩)

/-- `handle_rsi_ipa_state_get`: memory.c:47-73. -/
def rsiIpaStateGet (env : Env) (w : World) : World × Res :=
  let s := w.rc.regs 1
  let e := w.rc.regs 2
  if aligned s = false ∨ inPar w.rc s = false ∨ aligned e = false ∨ inPar w.rc (e - 1) = false ∨ e ≤ s then
    (w, ret w.rc RSI_ERROR_INPUT)
  else match env.getRipas s e with
    | none => (w, ret w.rc RSI_ERROR_INPUT)
    | some (top, v) =>
      (w, ⟨RETURN_TO_REALM, 0, upd (upd (upd (res0 w.rc) 0 RSI_SUCCESS) 1 (if top > e then e else top)) 2 v.toW⟩)

/-- The walk at the start of `do_host_call`: host_call.c:29-73, for an address in the protected half. -/
def hostCallWalk (env : Env) (r : Rec) : Option Walk :=
  if inPar r (r.regs 1) then some (env.walk (r.regs 1 &&& ~~~0xfff)) else none

/-- The address of the host call structure, given the physical address of its page: host_call.c:72. -/
def hostCallPa (r : Rec) (pa : Nat) : Nat := pa + (r.regs 1 &&& 0xfff).toNat

/-- The exit half of `do_host_call`: host_call.c:75-90.  `struct rsi_host_call` (smc-rsi.h:327-334)
has a 32-bit immediate at offset 0 and 31 registers from offset 8. -/
def hostCallOut (w : World) (a : Nat) : World :=
  { w with
    rc := { w.rc with hostCall := true }
    ex := { w.ex with imm := BitVec.ofNat 32 (Meas.leNat (load w.mem a 4))
                      gprs := fun i => if i < 31 then load64 w.mem (a + 8 + 8 * i) else w.ex.gprs i
                      reason := EXIT_HOST_CALL } }

/-- `handle_rsi_host_call`: host_call.c:107-131. -/
def rsiHostCall (env : Env) (w : World) : Option (World × Res) :=
  let ipa := w.rc.regs 1
  if aligned256 ipa = false then some (w, ret w.rc RSI_ERROR_INPUT)
  else if ipa >>> 12 ≠ (ipa + 256 - 1) >>> 12 then some (w, ret w.rc RSI_ERROR_INPUT)
  else if inPar w.rc ipa = false then some (w, ret w.rc RSI_ERROR_INPUT)
  else (hostCallWalk env w.rc).map fun
    | .miss .empty _ => (w, ret w.rc RSI_ERROR_INPUT)
    | .miss _ l => (w, s2fault w.rc l)
    | .ram pa => (hostCallOut w (hostCallPa w.rc pa), ⟨EXIT_TO_HOST, 0, res0 w.rc⟩)

/-! ## Attestation token -/

/-- `attest_token_ctx_init`: attestation_token.c:374-400; `ok` is whether the heap was set up. -/
def ctxInit (ok : Bool) (a : Att) : Option Att :=
  if a.state = .init then some a
  else if ok then some { a with state := .init }
  else none

/-- `handle_rsi_attest_token_init`: realm_attest.c:137-199, with the last step of
`attest_realm_token_create` (attestation_token.c:268-371): the state becomes SIGN if it succeeds. -/
def rsiTokenInit (env : Env) (w : World) : World × Res :=
  let a0 : Att := { w.att with realmLen := 0, copied := 0, ccaLen := 0 }
  match ctxInit env.attInit a0 with
  | none => ({ w with att := { a0 with state := .notStarted } }, ret w.rc RSI_ERROR_UNKNOWN)
  | some a =>
    if env.attCreate then
      ({ w with att := { a with state := .sign } },
        ⟨RETURN_TO_REALM, 0, upd (upd (res0 w.rc) 0 RSI_SUCCESS) 1 env.tokenBuf⟩)
    else ({ w with att := a }, ret w.rc RSI_ERROR_UNKNOWN)

/-- How the signing loop ends. -/
inductive SignEnd where
  | write
  | badState
  | error
  | irq
  deriving DecidableEq

/-- The loop `while (rmm_realm_token_len == 0)`: realm_attest.c:307-374, with `attest_realm_token_sign`
(attestation_token.c:127-190).  The list has the outcome of each round of signing and the interrupt status
after it; `none` when it has too few entries.  `ATTEST_EL3_TOKEN_SIGN` is taken to be off. -/
def signLoop : List (SignRes × Bool) → Att → Option (Att × SignEnd)
  | rounds, a =>
    if a.realmLen ≠ 0 then some (a, .write)
    else if a.state ≠ .sign then some (a, .badState)
    else match rounds with
      | [] => none
      | (.error, _) :: _ => some (a, .error)
      | (.inProgress, irq) :: rest => if irq then some (a, .irq) else signLoop rest a
      | (.done n, irq) :: rest =>
        let a' := { a with realmLen := n, state := .create }
        if irq then some (a', .irq) else signLoop rest a'

/-- `attest_token_continue_write_state`: realm_attest.c:37-135. -/
def tokenWrite (env : Env) (w : World) : World × Res :=
  let size := (w.rc.regs 3).toNat
  match env.walk (w.rc.regs 1) with
  | .miss .empty _ => (w, ret w.rc RSI_ERROR_INPUT)
  | .miss _ l => (w, s2fault w.rc l)
  | .ram pa =>
    if size = 0 then (w, ret w.rc RSI_INCOMPLETE)
    else
      let created : Option Att :=
        if w.att.copied = 0 then
          if w.att.state = .create then
            env.ccaToken.map fun t => { w.att with state := .notStarted, buf := t, ccaLen := t.length }
          else none
        else some w.att
      match created with
      | none => (w, ret w.rc RSI_ERROR_INPUT)
      | some a =>
        let len := if size < a.ccaLen then size else a.ccaLen
        let mem := store w.mem (pa + (w.rc.regs 2).toNat) ((a.buf.drop a.copied).take len)
        let left := a.ccaLen - len
        if left ≠ 0 then
          ({ w with mem := mem, att := { a with ccaLen := left, copied := a.copied + len } },
           ⟨RETURN_TO_REALM, 0, upd (upd (res0 w.rc) 0 RSI_INCOMPLETE) 1 (BitVec.ofNat 64 len)⟩)
        else
          ({ w with mem := mem, att := { a with realmLen := 0 } },
           ⟨RETURN_TO_REALM, 0, upd (upd (res0 w.rc) 0 RSI_SUCCESS) 1 (BitVec.ofNat 64 len)⟩)

/-- `handle_rsi_attest_token_continue`: realm_attest.c:277-377. -/
def rsiTokenContinue (env : Env) (w : World) : Option (World × Res) :=
  let ipa := w.rc.regs 1
  let off := w.rc.regs 2
  let size := w.rc.regs 3
  if aligned ipa = false ∨ off ≥ 4096 ∨ off + size > 4096 ∨ off + size < off then some (w, ret w.rc RSI_ERROR_INPUT)
  else if inPar w.rc ipa = false then some (w, ret w.rc RSI_ERROR_INPUT)
  else (signLoop env.sign w.att).map fun r =>
    let w' := { w with att := r.1 }
    match r.2 with
    | .badState => (w', ret w.rc RSI_ERROR_STATE)
    | .error => (w', ret w.rc RSI_ERROR_UNKNOWN)
    | .irq => ({ w' with ex := { w'.ex with reason := EXIT_IRQ } }, ⟨UPDATE_EXIT, 0, upd (res0 w.rc) 0 RSI_INCOMPLETE⟩)
    | .write => tokenWrite env w'

/-! ## Dispatch -/

/-- The switch of `handle_realm_rsi`: exit.c:411-456.  Function identifiers: smc-rsi.h:95-190. -/
def rsiSwitch (env : Env) (w : World) (f : BitVec 32) : Option (World × Res) :=
  if f = 0x80000000 then some (w, ret w.rc 0x10002)
  else if (0x84000000 ≤ f ∧ f ≤ 0x84000014) ∨ (0xC4000000 ≤ f ∧ f ≤ 0xC4000014) then some (psci env w)
  else if f = 0xC4000190 then some (rsiVersion w)
  else if f = 0xC4000191 then some (rsiFeatures w)
  else if f = 0xC4000194 then some (rsiTokenInit env w)
  else if f = 0xC4000195 then rsiTokenContinue env w
  else if f = 0xC4000192 then some (rsiRead env w)
  else if f = 0xC4000193 then some (rsiExtend env w)
  else if f = 0xC4000196 then some (rsiConfig env w)
  else if f = 0xC4000197 then some (rsiIpaStateSet w)
  else if f = 0xC4000198 then some (rsiIpaStateGet env w)
  else if f = 0xC4000199 then rsiHostCall env w
  else some (w, ret w.rc (-1))

/-- The function identifier: X0 truncated, without the SVE hint bit: exit.c:387, 402-403. -/
def fid (r : Rec) : BitVec 32 := (r.regs 0).setWidth 32 &&& ~~~0x10000

/-- What `handle_realm_rsi` does with the result: exit.c:462-474. -/
def rsiFinish (p : World × Res) : Option (World × Bool) :=
  let w := p.1
  let regs := if p.2.act.upd then fun i => if i < 5 then p.2.x i else w.rc.regs i else w.rc.regs
  let w' := { w with rc := { w.rc with regs := regs } }
  (if p.2.act.abort then emulateS2Abort w' p.2.level else some { w' with rc := advancePc w'.rc }).map
    (·, !p.2.act.exit)

/-- `handle_realm_rsi`: exit.c:384-474. -/
def realmRsi (env : Env) (w : World) : Option (World × Bool) := (rsiSwitch env w (fid w.rc)).bind rsiFinish

end Verif.Run
