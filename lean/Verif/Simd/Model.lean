import Verif.Basic

/-!
# SIMD state: the vector registers of a CPU and the saved contexts

/repo/lib/arch/src/simd.c, lib/arch/include/simd.h, lib/arch/src/aarch64/simd_helpers.S,
and their callers in runtime/core/handler.c, runtime/core/exit.c, runtime/core/run.c and
runtime/rmi/rec.c.

The registers are bit-exact in units of 128 bits (vectors) and 16 bits (predicates).  An
instruction that CPTR_EL2 traps, and an assertion that does not hold, are `none`.
-/

namespace Verif.Simd

abbrev W := BitVec 64

/-- An assertion, or an instruction that must not trap. -/
def need (b : Bool) : Option Unit := if b then some () else none

/-- What the code finds out about the CPUs, and what the architecture leaves open. -/
structure Plat where
  /-- FEAT_SVE, FEAT_SME -/
  sve : Bool
  sme : Bool
  /-- the vector length (in quadwords, less one) that a LEN field gives -/
  vl : Nat → Nat
  /-- the streaming vector length that the low bits of SMCR_EL2 give -/
  svl : Nat → Nat
  /-- whether a write to a vector or predicate register keeps the bits past the current
  vector length (the architecture allows both) -/
  keep : Bool
  /-- RMM_FPU_USE_AT_REL2 -/
  fpuAtEl2 : Bool

/-- What the architecture says about vector lengths: a LEN that is an implemented length
gives that length, and longer lengths are given for greater LEN only. -/
structure Plat.Ok (P : Plat) : Prop where
  mono : ∀ a b, a ≤ b → P.vl a ≤ P.vl b
  idem : ∀ a, P.vl (P.vl a) = P.vl a
  max : P.vl 15 ≤ 15
  smax : ∀ a, P.svl a ≤ 15

/-- The SIMD registers of one CPU. -/
structure Hw where
  /-- vector register, quadword -/
  z : Nat → Nat → BitVec 128
  /-- predicate register, 16 bit unit -/
  p : Nat → Nat → BitVec 16
  ffr : Nat → BitVec 16
  fpsr : W
  fpcr : W
  /-- ZCR_EL1 and ZCR_EL2 -/
  zcr1 : W
  zcr2 : W
  /-- SMCR_EL2: written by the host only -/
  smcr2 : W
  /-- PSTATE.SM and PSTATE.ZA as seen in SVCR -/
  sm : Bool
  za : Bool
  /-- the ZA and ZT0 storage -/
  zaMem : Nat
  cptr : W

/-- `struct simd_context`: simd.h:112-172.  The union `vregs` is `zm`, `pm` and `fm`; the FPU
registers share their place with the first 32 quadwords of `zm`. -/
structure Ctx where
  /-- SIMD_OWNER_NWD -/
  ns : Bool
  /-- tflags -/
  sve : Bool
  sme : Bool
  /-- sflags -/
  init : Bool
  saved : Bool
  hint : Bool
  cptr : W
  /-- `svcr` -/
  sm : Bool
  za : Bool
  /-- `el2_regs.zcr_el2`, `ns_el2_regs.zcr_el2` -/
  zcr2 : W
  nsZcr2 : W
  zcr1 : W
  fpsr : W
  fpcr : W
  zm : Nat → BitVec 128
  pm : Nat → BitVec 16
  fm : Nat → BitVec 16

/-! ## CPTR_EL2: arch.h:827-864 -/

def FPEN : W := 0x300000
def ZEN : W := 0x30000
def SMEN : W := 0x3000000
/-- `CPTR_EL2_VHE_SIMD_MASK`: arch.h:852-854. -/
def SIMD_MASK : W := 0x3330000
/-- `CPTR_EL2_VHE_INIT`: arch.h:857-864. -/
def CPTR_INIT : W := 0x50000000

def fpen (c : W) : Bool := c &&& FPEN == FPEN
def zen (c : W) : Bool := c &&& ZEN == ZEN
def smen (c : W) : Bool := c &&& SMEN == SMEN

/-- `SIMD_ENABLE_CPTR_FLAGS`: simd.h:223-239. -/
def enableFlags (sve sme : Bool) (c : W) : W :=
  let c := c &&& ~~~ SIMD_MASK
  let c := c ||| FPEN
  let c := if sve then c ||| ZEN else c
  if sme then c ||| SMEN else c

/-- `SIMD_DISABLE_ALL_CPTR_FLAGS`: simd.h:242-251. -/
def disableFlags (c : W) : W := c &&& ~~~ SIMD_MASK

/-! ## The instructions -/

/-- The vector length in force at EL2: the streaming one in streaming mode, else what
ZCR_EL2.LEN gives. -/
def vq (P : Plat) (h : Hw) : Nat := if h.sm then P.svl h.smcr2.toNat else P.vl (h.zcr2.toNat % 16)

/-- Writing SVCR.  Entering and leaving streaming mode clears the vector registers, the
predicates and FFR, and sets FPSR; turning the ZA storage on or off clears it. -/
def writeSvcr (h : Hw) (sm za : Bool) : Hw :=
  let h := if h.sm == sm then h
    else { h with z := fun _ _ => 0, p := fun _ _ => 0, ffr := fun _ => 0, fpsr := 0x800009f, sm := sm }
  if h.za == za then h else { h with zaMem := 0, za := za }

/-- What is past the vector length after a write. -/
def past (P : Plat) {n : Nat} (old : BitVec n) : BitVec n := if P.keep then old else 0

/-- `fpu_save_registers`: simd_helpers.S:29-51. -/
def fpuSave (h : Hw) (c : Ctx) : Option Ctx := do
  need (fpen h.cptr && !h.sm)
  some { c with zm := fun i => if i < 32 then h.z i 0 else c.zm i }

/-- `fpu_restore_registers`: simd_helpers.S:65-86.  Writing a Q register clears the rest of
the vector. -/
def fpuRestore (P : Plat) (h : Hw) (c : Ctx) : Option Hw := do
  need (fpen h.cptr && !h.sm)
  some { h with z := fun n j =>
    if n < 32 then (if j = 0 then c.zm n else if j ≤ vq P h then 0 else past P (h.z n j)) else h.z n j }

/-- Access to SVE instructions at EL2. -/
def sveOk (P : Plat) (h : Hw) : Bool :=
  fpen h.cptr && (if h.sm then P.sme && smen h.cptr else P.sve && zen h.cptr)

/-- `sme_feat_fa64_enabled`: simd_private.h:55-58. -/
def fa64 (h : Hw) : Bool := h.smcr2.getLsbD 31

/-- FFR can be used at EL2: in streaming mode only with FEAT_SME_FA64. -/
def ffrOk (h : Hw) : Bool := !h.sm || fa64 h

/-- `sve_save_vector_registers`: simd_helpers.S:118-187.  Register number n is stored at n times
the current vector length.  Reading FFR overwrites P0. -/
def sveSave (P : Plat) (h : Hw) (c : Ctx) (ffr : Bool) : Option (Hw × Ctx) := do
  need (sveOk P h && (!ffr || ffrOk h))
  let v := vq P h
  let c := { c with
    zm := fun i => if i < 32 * (v + 1) then h.z (i / (v + 1)) (i % (v + 1)) else c.zm i
    pm := fun i => if i < 16 * (v + 1) then h.p (i / (v + 1)) (i % (v + 1)) else c.pm i }
  if ffr then
    some ({ h with p := fun n j => if n = 0 then (if j ≤ v then h.ffr j else past P (h.p n j)) else h.p n j },
      { c with fm := fun j => if j ≤ v then h.ffr j else c.fm j })
  else some (h, c)

/-- `sve_restore_vector_registers`: simd_helpers.S:204-274. -/
def sveRestore (P : Plat) (h : Hw) (c : Ctx) (ffr : Bool) : Option Hw := do
  need (sveOk P h && (!ffr || ffrOk h))
  let v := vq P h
  let h := { h with
    z := fun n j => if n < 32 then (if j ≤ v then c.zm (n * (v + 1) + j) else past P (h.z n j)) else h.z n j }
  let h := if ffr then { h with ffr := fun j => if j ≤ v then c.fm j else past P (h.ffr j) } else h
  some { h with
    p := fun n j => if n < 16 then (if j ≤ v then c.pm (n * (v + 1) + j) else past P (h.p n j)) else h.p n j }

/-- `sve_clear_p_ffr_registers`: simd_helpers.S:284-306. -/
def clearPFfr (P : Plat) (h : Hw) : Option Hw := do
  need (sveOk P h && ffrOk h)
  let v := vq P h
  some { h with
    p := fun n j => if n < 16 then (if j ≤ v then 0 else past P (h.p n j)) else h.p n j
    ffr := fun j => if j ≤ v then 0 else past P (h.ffr j) }

/-! ## simd.c -/

/-- `restore_simd_el2_config`: simd.c:77-86.  Accesses to ZCR_EL2 need ZEN. -/
def setZcr2 (h : Hw) (c : Ctx) (v : W) : Option Hw :=
  if c.sve then do
    need (zen h.cptr)
    some { h with zcr2 := v }
  else some h

/-- `is_sve_mode_streaming`: simd.c:35. -/
def streaming (h : Hw) (c : Ctx) : Bool := c.sme && h.sm

/-- `is_sve_mode_normal`: simd.c:45-47. -/
def normal (h : Hw) (c : Ctx) : Bool := c.sve && !c.hint && !streaming h c

/-- Saving the vector registers: simd.c:104-119. -/
def saveRegs (P : Plat) (h : Hw) (c : Ctx) : Option (Hw × Ctx) :=
  if normal h c || streaming h c then
    sveSave P h c (if streaming h c then fa64 h else true)
  else (fpuSave h c).map fun c => (h, c)

/-- `save_simd_context`: simd.c:88-141. -/
def saveCtx (P : Plat) (h : Hw) (c : Ctx) : Option (Hw × Ctx) := do
  let h ← setZcr2 h c c.zcr2
  need (!c.sme || smen h.cptr)
  let c := if c.sme then { c with sm := h.sm, za := h.za } else c
  let (h, c) ← saveRegs P h c
  let c := if c.sve then { c with zcr1 := h.zcr1 } else c
  let c := { c with fpsr := h.fpsr, fpcr := h.fpcr }
  if streaming h c then some (writeSvcr h false c.za, c) else some (h, c)

/-- Restoring the vector registers: simd.c:169-196. -/
def restoreRegs (P : Plat) (h : Hw) (c : Ctx) : Option Hw :=
  if normal h c || streaming h c then
    sveRestore P h c (if streaming h c then fa64 h else true)
  else do
    let h ← fpuRestore P h c
    if c.sve then clearPFfr P h else some h

/-- `restore_simd_context`: simd.c:143-204. -/
def restoreCtx (P : Plat) (h : Hw) (c : Ctx) : Option Hw := do
  let h ← setZcr2 h c c.zcr2
  need (!c.sme || smen h.cptr)
  let h := if c.sme then writeSvcr h c.sm c.za else h
  let h ← restoreRegs P h c
  let h := if c.sve then { h with zcr1 := c.zcr1 } else h
  some { h with fpsr := c.fpsr, fpcr := c.fpcr }

/-- The first half of `simd_context_switch`, with `g_simd_state_saved` of this CPU: simd.c:222-248. -/
def switchSave (P : Plat) (h : Hw) (flag : Bool) (c : Ctx) : Option (Hw × Bool × Ctx) := do
  need (c.init && !c.saved && !flag)
  let h := { h with cptr := c.cptr }
  need (!(c.ns && c.sve) || zen h.cptr)
  let c := if c.ns && c.sve then { c with nsZcr2 := h.zcr2 } else c
  let (h, c) ← saveCtx P h c
  some (h, true, { c with saved := true })

/-- The second half: simd.c:250-276. -/
def switchRestore (P : Plat) (h : Hw) (flag : Bool) (c : Ctx) : Option (Hw × Bool × Ctx) := do
  need (c.init && c.saved && flag)
  let h := { h with cptr := c.cptr }
  let h ← restoreCtx P h c
  let h ← if c.ns then setZcr2 h c c.nsZcr2 else some h
  some (h, false, { c with saved := false })

/-- `simd_context_save`: simd.h:209-212 with simd.c:212-283. -/
def contextSave (P : Plat) (h : Hw) (flag : Bool) (c : Ctx) : Option (Hw × Bool × Ctx) := do
  let (h', flag, c) ← switchSave P h flag c
  some ({ h' with cptr := h.cptr }, flag, c)

/-- `simd_context_restore`: simd.h:214-217 with simd.c:212-283. -/
def contextRestore (P : Plat) (h : Hw) (flag : Bool) (c : Ctx) : Option (Hw × Bool × Ctx) := do
  let (h', flag, c) ← switchRestore P h flag c
  some ({ h' with cptr := h.cptr }, flag, c)

/-- `simd_context_switch` with both arguments: simd.c:212-283. -/
def contextSwitch (P : Plat) (h : Hw) (flag : Bool) (cs cr : Ctx) : Option (Hw × Bool × Ctx × Ctx) := do
  let (h', flag, cs) ← switchSave P h flag cs
  let (h', flag, cr) ← switchRestore P h' flag cr
  some ({ h' with cptr := h.cptr }, flag, cs, cr)

/-- A context in zeroed memory. -/
def zeroCtx : Ctx :=
  { ns := false, sve := false, sme := false, init := false, saved := false, hint := false, cptr := 0, sm := false
    za := false, zcr2 := 0, nsZcr2 := 0, zcr1 := 0, fpsr := 0, fpcr := 0
    zm := fun _ => 0, pm := fun _ => 0, fm := fun _ => 0 }

/-- `simd_context_init` on a configuration: simd.c:320-377, after `simd_init` found `P`
(simd.c:411-516; the greatest vector length is what LEN = 15 gives). -/
def contextInit (P : Plat) (ns : Bool) (c : Ctx) (sve : Bool) (len : Nat) (sme : Bool) : Option Ctx := do
  need !c.init
  need (!sve || (P.sve && decide (len ≤ P.vl 15)))
  need (!sme || P.sme)
  let c := { c with ns := ns, saved := !ns, cptr := enableFlags sve sme CPTR_INIT }
  let c := if sve then { c with sve := true, zcr2 := BitVec.ofNat 64 (len % 16) } else c
  let c := if sme then { c with sme := true, sm := false, za := false } else c
  some { c with init := true }

/-- `simd_update_smc_sve_hint`: simd.c:380-392. -/
def updateHint (c : Ctx) (hint : Bool) : Option Ctx := do
  need c.init
  if c.sve then do
    need !c.saved
    some { c with hint := hint }
  else some c

/-! ## The callers -/

/-- What the code does with one CPU. -/
inductive Mode where
  /-- the host runs -/
  | host
  /-- the REC runs, or RMM handles an exit from it: inside `rec_run_loop`.  `live` is
  `rec->active_simd_ctx == rec->aux_data.simd_ctx`. -/
  | run (r : Nat) (live : Bool)
  deriving DecidableEq

structure Cpu where
  hw : Hw
  /-- `g_simd_state_saved` -/
  flag : Bool
  /-- `g_ns_simd_ctx` -/
  ns : Ctx
  mode : Mode

structure RecS where
  ctx : Ctx
  /-- `sysregs.cptr_el2` -/
  cptr : W
  /-- `realm_info.simd_cfg.sve_en` -/
  sve : Bool

structure State where
  cpu : Nat → Cpu
  rec_ : Nat → Option RecS

def setCpu (s : State) (c : Nat) (x : Cpu) : State := { s with cpu := fun i => if i = c then x else s.cpu i }
def setRec (s : State) (r : Nat) (x : RecS) : State :=
  { s with rec_ := fun i => if i = r then some x else s.rec_ i }

/-- Instructions that use the floating point registers but not SVE: they set registers,
clear the rest of the vectors they write, and set FPSR and FPCR. -/
structure FpStep (h h' : Hw) : Prop where
  z : ∀ n j, 0 < j → h'.z n j = h.z n j ∨ h'.z n j = 0
  rest : h' = { h with z := h'.z, fpsr := h'.fpsr, fpcr := h'.fpcr }

/-- Instructions that use SVE with at most vector length `v` at EL1. -/
structure SveStep (v : Nat) (h h' : Hw) : Prop where
  z : ∀ n j, v < j → h'.z n j = h.z n j ∨ h'.z n j = 0
  rest : h' = { h with z := h'.z, p := h'.p, ffr := h'.ffr, fpsr := h'.fpsr, fpcr := h'.fpcr, zcr1 := h'.zcr1 }

/-- What a realm can do to the registers, given the trap controls it runs with. -/
def RealmStep (P : Plat) (c : W) (h h' : Hw) : Prop :=
  if fpen c then
    if smen c && P.sme then True
    else if zen c && P.sve then SveStep (vq P h) h h' else FpStep h h'
  else h' = h

/-- The SIMD exceptions a realm can take to EL2: arch.h ESR_EL2_EC_FPU, _SVE and _SME. -/
inductive Ec where
  | fpu
  | sve
  | sme
  deriving DecidableEq

/-- An exception of this class can be taken with the trap controls `c`. -/
def traps (P : Plat) (c : W) : Ec → Bool
  | .fpu => !fpen c
  | .sve => P.sve && !(fpen c && zen c)
  | .sme => P.sme

inductive Op where
  /-- the host runs on a CPU -/
  | host (c : Nat) (h : Hw)
  /-- an RMI command other than REC_ENTER, with the SVE hint; `fpu` says whether it is one
  that needs the registers, `f` is what RMM does with them -/
  | rmi (c : Nat) (hint fpu : Bool) (f : Hw → Hw)
  /-- REC_ENTER up to the run loop -/
  | enter (c : Nat) (hint : Bool) (r : Nat)
  /-- the realm runs -/
  | realm (c : Nat) (h : Hw)
  /-- a SIMD exception -/
  | trap (c : Nat) (e : Ec)
  /-- an RSI call -/
  | rsi (c : Nat) (fpu : Bool) (f : Hw → Hw)
  /-- the end of the run loop -/
  | leave (c : Nat)
  /-- REC_CREATE and REC_DESTROY -/
  | create (r : Nat) (sve : Bool) (len : Nat)
  | destroy (r : Nat)

/-- What has to hold for an operation to be possible at all: which world runs on the CPU,
what it can do to the registers, that a REC runs on one CPU at most (C10), that the vector
length of a realm is one REALM_CREATE accepts (C50).  EL3 keeps CPTR_EL2 of the two
worlds apart. -/
def Can (P : Plat) (s : State) : Op → Prop
  | .host c h => (s.cpu c).mode = .host ∧ h.cptr = (s.cpu c).hw.cptr ∧ (P.sme = false → h.sm = false)
  | .rmi c _ _ f => (s.cpu c).mode = .host ∧ ∀ h, FpStep h (f h)
  | .enter c _ r => (s.cpu c).mode = .host ∧ (s.rec_ r).isSome = true ∧ ∀ c' l, (s.cpu c').mode ≠ .run r l
  | .realm c h => ∃ r l x, (s.cpu c).mode = .run r l ∧ s.rec_ r = some x ∧
      ∃ h', RealmStep P x.cptr { (s.cpu c).hw with cptr := x.cptr } h' ∧ h = { h' with cptr := (s.cpu c).hw.cptr }
  | .trap c e => ∃ r l x, (s.cpu c).mode = .run r l ∧ s.rec_ r = some x ∧ traps P x.cptr e = true
  | .rsi c _ f => (∃ r l, (s.cpu c).mode = .run r l) ∧ ∀ h, FpStep h (f h)
  | .leave c => ∃ r l, (s.cpu c).mode = .run r l
  | .create r sve len => s.rec_ r = none ∧ (sve = true → P.sve = true ∧ len ≤ P.vl 15)
  | .destroy r => (s.rec_ r).isSome = true ∧ ∀ c l, (s.cpu c).mode ≠ .run r l

/-- RMM's own use of the registers: `SIMD_FPU_ALLOW`, simd.h:258-272. -/
def fpuAllow (h : Hw) (flag : Bool) (f : Hw → Hw) : Option Hw := do
  need flag
  some { f { h with cptr := h.cptr ||| FPEN } with cptr := h.cptr }

/-- A handler that needs the registers: they are saved, used and restored; handler.c:195-206
and 323-379, exit.c:369-380, 403-407 and 453-456. -/
def withFpu (P : Plat) (h : Hw) (flag : Bool) (c : Ctx) (f : Hw → Hw) : Option (Hw × Bool × Ctx) := do
  let (h, flag, c) ← contextSave P h flag c
  let h ← fpuAllow h flag f
  contextRestore P h flag c

def step (P : Plat) (s : State) : Op → Option State
  | .host c h => some (setCpu s c { s.cpu c with hw := h })
  /- `handle_ns_smc`: handler.c:315-383 -/
  | .rmi c hint fpu f => do
    let u := s.cpu c
    need !u.flag
    let ns ← updateHint u.ns hint
    if fpu && P.fpuAtEl2 then
      let (h, flag, ns) ← withFpu P u.hw u.flag ns f
      need !flag
      some (setCpu s c { u with hw := h, flag := flag, ns := ns })
    else some (setCpu s c { u with ns := ns })
  /- handler.c:315-322, run.c:285-290 -/
  | .enter c hint r => do
    let u := s.cpu c
    need !u.flag
    let ns ← updateHint u.ns hint
    some (setCpu s c { u with ns := ns, mode := .run r false })
  | .realm c h => some (setCpu s c { s.cpu c with hw := h })
  /- `handle_simd_exception`: exit.c:303-358; an injected exception leaves this state alone -/
  | .trap c e =>
    let u := s.cpu c
    match u.mode with
    | .host => none
    | .run r live =>
      match s.rec_ r with
      | none => none
      | some x =>
        if e = .sve ∧ x.sve = false then some s
        else if e = .sme ∧ (x.sve = false ∨ live = true) then some s
        else do
          need !live
          let (h, flag, ns, cr) ← contextSwitch P u.hw u.flag u.ns x.ctx
          some (setRec (setCpu s c { hw := h, flag := flag, ns := ns, mode := .run r true }) r
            { x with ctx := cr, cptr := enableFlags x.sve false x.cptr })
  /- `handle_realm_rsi`: exit.c:384-460 -/
  | .rsi c fpu f =>
    let u := s.cpu c
    match u.mode with
    | .host => none
    | .run r live =>
      match s.rec_ r with
      | none => none
      | some x =>
        if fpu && P.fpuAtEl2 then
          if live then do
            let (h, flag, cr) ← withFpu P u.hw u.flag x.ctx f
            some (setRec (setCpu s c { u with hw := h, flag := flag }) r { x with ctx := cr })
          else do
            let (h, flag, ns) ← withFpu P u.hw u.flag u.ns f
            some (setCpu s c { u with hw := h, flag := flag, ns := ns })
        else some s
  /- the end of `rec_run_loop`: run.c:336-353, then handler.c:381-382 -/
  | .leave c =>
    let u := s.cpu c
    match u.mode with
    | .host => none
    | .run r live =>
      match s.rec_ r with
      | none => none
      | some x =>
        if live then do
          let (h, flag, cr, ns) ← contextSwitch P u.hw u.flag x.ctx u.ns
          need !flag
          some (setRec (setCpu s c { hw := h, flag := flag, ns := ns, mode := .host }) r
            { x with ctx := cr, cptr := disableFlags x.cptr })
        else do
          need !u.flag
          some (setCpu s c { u with mode := .host })
  /- rec.c:22-35, 193-241: the context is in a zeroed auxiliary granule (C21) -/
  | .create r sve len => do
    let cr ← contextInit P false zeroCtx sve len false
    some (setRec s r { ctx := cr, cptr := CPTR_INIT, sve := sve })
  | .destroy r => some { s with rec_ := fun i => if i = r then none else s.rec_ i }

/-- After boot: `init_all_cpus_ns_simd_context` (run.c:239-252), with CPTR_EL2 as head.S:32-35
sets it. -/
structure Init (P : Plat) (s : State) : Prop where
  ns : ∀ c, contextInit P true zeroCtx P.sve (P.vl 15) P.sme = some (s.cpu c).ns
  flag : ∀ c, (s.cpu c).flag = false
  mode : ∀ c, (s.cpu c).mode = .host
  cptr : ∀ c, (s.cpu c).hw.cptr = CPTR_INIT
  sm : P.sme = false → ∀ c, (s.cpu c).hw.sm = false
  recs : ∀ r, s.rec_ r = none

inductive Reach (P : Plat) : State → Prop
  | init {s} : Init P s → Reach P s
  | step {s s' op} : Reach P s → Can P s op → step P s op = some s' → Reach P s'

end Verif.Simd
