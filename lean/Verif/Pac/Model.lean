import Verif.Basic

/-!
# Pointer authentication of RMM's own return addresses

/repo/lib/arch/src/pauth.c, the calls made by /repo/runtime/core/aarch64/head.S, entry.S and run-asm.S and by
`rec_run_loop` (/repo/runtime/core/run.c:260-366). RMM is compiled with `-mbranch-protection=standard`
(/repo/toolchains/aarch64/common_aarch64.cmake:16): a function that saves its return address signs it on entry with the
APIA key, with SP as modifier, and authenticates it before it returns.

Code is a tree of the things that matter here: calls, returns and writes of the registers concerned. Branches and the
number of rounds of a loop are left open. A write of a system register has an effect on the instructions that follow
at the next `isb` at the latest, and may have it at any time before. EL3 is taken to keep the registers of R-EL2,
including the keys, over the `smc` instructions of RMM.
-/

namespace Verif.Pac

abbrev W := BitVec 64
abbrev Key := BitVec 128

/-- Which part of RMM some code is in. -/
inductive Where where
  /-- before pointer authentication is switched on -/
  | boot
  /-- `rmm_main` and everything after it, but for the code next -/
  | rmm
  /-- between the two switches of the key around `run_realm` -/
  | gap
  deriving DecidableEq, Repr

/-- Where the key that is written comes from. -/
inductive Src where
  /-- `g_rmm_pauth_apia[my_cpuid()]` -/
  | rmm
  /-- `rec->pauth`: any value -/
  | realm
  deriving DecidableEq, Repr

inductive Code where
  /-- instructions that touch neither the keys, SCTLR_EL2 nor a saved return address -/
  | other (w : Where)
  | seq (a b : Code)
  /-- one or the other -/
  | alt (a b : Code)
  /-- any number of times -/
  | loop (a : Code)
  /-- a call; `prot`: of a function that signs and authenticates its return address. Assembly and functions with
  `PAUTH_NONE_ATTR` (/repo/lib/arch/src/aarch64/pauth_pvt.h) do not. -/
  | fn (prot : Bool) (body : Code)
  | isb
  /-- SCTLR_EL2.EnIA -/
  | setEn (b : Bool)
  /-- `g_rmm_pauth_apia[cpu_id] = …`: pauth.c:34 -/
  | draw
  /-- `write_apiakeylo_el1` -/
  | keyLo (s : Src)
  /-- `write_apiakeyhi_el1` -/
  | keyHi (s : Src)
  /-- the realm runs, and can write the keys -/
  | realm
  deriving DecidableEq, Repr

/-- A saved return address: the address, the value of SP and the bits of the saved word that hold the code. -/
structure Frame where
  lr : W
  sp : W
  field : BitVec 16
  deriving DecidableEq, Repr

inductive Item where
  | code (c : Code)
  | ret (f : Frame)
  deriving DecidableEq, Repr

/-- A CPU: the registers as last written, what is in effect, and what is left to do. -/
structure Cpu where
  lo : W
  hi : W
  elo : W
  ehi : W
  en : Bool
  een : Bool
  k : List Item
  /-- ghost: a key has been drawn since this CPU was started last -/
  drawn : Bool

/-- The machine. `apia` is `g_rmm_pauth_apia` (pauth.c:14). -/
structure M where
  cpu : Nat → Cpu
  apia : Nat → Key

def upd {α : Type} (f : Nat → α) (i : Nat) (v : α) : Nat → α := fun j => if j = i then v else f j

/-- pauth.c:34: the key from the two halves. -/
def join (high low : W) : Key := (high.setWidth 128 <<< 64) ||| low.setWidth 128

/-- pauth.c:53: `(uint64_t)g_rmm_pauth_apia[cpu_id]`. -/
def loOf (k : Key) : W := k.setWidth 64

/-- pauth.c:54: `(uint64_t)(g_rmm_pauth_apia[cpu_id] >> 64)`. -/
def hiOf (k : Key) : W := (k >>> 64).setWidth 64

/-- What an instruction can do is settled by `o`: the branch taken, the addresses of a call, values from outside. -/
structure Choice where
  b : Bool := false
  lr : W := 0
  sp : W := 0
  v : W := 0
  w : W := 0
  v' : W := 0
  w' : W := 0

/-- The code in a pointer: any function of key, address and modifier. -/
abbrev PacFn := Key → W → W → BitVec 16

/-- `PACIASP`: without EnIA it does nothing and the upper bits of an address of the kernel half stay as they are; they
are written 0 here. -/
def sign (pac : PacFn) (c : Cpu) (lr sp : W) : BitVec 16 := if c.een then pac (join c.ehi c.elo) lr sp else 0

/-- `AUTIASP` and `RET`: the pointer has to carry the code for the key in effect, or none without EnIA. -/
def authOk (pac : PacFn) (c : Cpu) (f : Frame) : Bool :=
  if c.een then f.field == pac (join c.ehi c.elo) f.lr f.sp else f.field == 0

/-- CPU `i`, which is `c`, does the first item of `k`. `none`: a return address fails to authenticate. -/
def exec (pac : PacFn) (m : M) (i : Nat) (o : Choice) (c : Cpu) (k : List Item) : Option M :=
  let set (c' : Cpu) : M := { m with cpu := upd m.cpu i c' }
  match k with
  | [] => some m
  | .ret f :: k => if authOk pac c f then some (set { c with k := k }) else none
  | .code q :: k =>
    match q with
    | .other _ => some (set { c with k := k })
    | .seq a b => some (set { c with k := .code a :: .code b :: k })
    | .alt a b => some (set { c with k := .code (bif o.b then a else b) :: k })
    | .loop a => some (set { c with k := bif o.b then .code a :: .code (.loop a) :: k else k })
    | .fn false a => some (set { c with k := .code a :: k })
    | .fn true a => some (set { c with k := .code a :: .ret ⟨o.lr, o.sp, sign pac c o.lr o.sp⟩ :: k })
    | .isb => some (set { c with elo := c.lo, ehi := c.hi, een := c.en, k := k })
    | .setEn b => some (set { c with en := b, k := k })
    | .draw => some { cpu := upd m.cpu i { c with k := k, drawn := true }, apia := upd m.apia i (join o.w o.v) }
    | .keyLo .rmm => some (set { c with lo := loOf (m.apia i), k := k })
    | .keyLo .realm => some (set { c with lo := o.v, k := k })
    | .keyHi .rmm => some (set { c with hi := hiOf (m.apia i), k := k })
    | .keyHi .realm => some (set { c with hi := o.w, k := k })
    | .realm => some (set { c with lo := o.v, hi := o.w, elo := o.v', ehi := o.w', k := k })

/-- CPU `i` does the next thing it has to do. -/
def next (pac : PacFn) (m : M) (i : Nat) (o : Choice) : Option M := exec pac m i o (m.cpu i) (m.cpu i).k

/-! ## The code -/

/-- `pauth_restore_rmm_keys`: pauth.c:49-56. -/
def restoreRmm : Code := .fn false (.seq (.keyLo .rmm) (.seq (.keyHi .rmm) .isb))

/-- `pauth_init_enable_el2`: pauth.c:21-47. HCR_EL2 and the keys other than APIA play no part here. -/
def pauthInit : Code :=
  .fn false (.seq (.loop (.other .boot)) (.seq (.loop (.other .boot)) (.seq .draw (.seq (.other .boot)
    (.seq restoreRmm (.seq (.setEn true) .isb))))))

/-- `pauth_restore_realm_keys`: pauth.c:58-71. -/
def restoreRealm : Code := .fn false (.seq (.keyLo .realm) (.seq (.keyHi .realm) (.seq (.other .gap) .isb)))

/-- `pauth_save_realm_keys`: pauth.c:73-85. -/
def saveRealm : Code := .fn false (.other .gap)

/-- `run_realm` and `realm_exit`: run-asm.S:19-112. It saves LR without signing it. -/
def runRealm : Code := .fn false (.seq (.other .gap) (.seq .realm (.other .gap)))

/-- The parts of RMM in which nothing of this happens: any code with calls, branches and loops, as long as it is
`Plain`. -/
structure Prog where
  /-- head.S:42-145, 156: `rmm_el2_init_env` after the `isb`, `plat_setup` or `plat_warmboot_setup`,
  `xlat_enable_mmu_el2` -/
  setup : Bool → Code
  /-- the body of `rmm_main` or `rmm_warmboot_main` -/
  main : Bool → Code
  /-- the body of `handle_ns_smc` for any command but RMI_REC_ENTER -/
  handlers : Code
  /-- `handle_ns_smc` and `smc_rec_enter` before the call of `rec_run_loop` (/repo/runtime/rmi/run.c:317), and after -/
  before : Code
  after : Code
  /-- `rec_run_loop` up to the loop: run.c:262-289 -/
  enter : Code
  /-- run.c:291-311, the timers and events, and CPTR_EL2 -/
  pre : Code
  /-- run.c:329-334, CPTR_EL2 and `handle_realm_exit` -/
  post : Code
  /-- run.c:336-365 -/
  leave : Code

/-- One round of the loop: run.c:290-334. -/
def round (P : Prog) : Code :=
  .seq P.pre (.seq restoreRealm (.seq runRealm (.seq saveRealm (.seq restoreRmm P.post))))

/-- The body of `rec_run_loop`: run.c:260-366. The `break` at 302 leaves a round after part of it. -/
def recRunLoop (P : Prog) : Code :=
  .seq P.enter (.seq (.loop (round P)) (.seq (.alt P.pre (.other .rmm)) P.leave))

/-- The body of `handle_ns_smc`: /repo/runtime/core/handler.c:206-313. -/
def handleNsSmc (P : Prog) : Code := .alt P.handlers (.seq P.before (.seq (.fn true (recRunLoop P)) P.after))

/-- `rmm_handler`: entry.S:12-43. The host runs in one of the `other`. -/
def rmmHandler (P : Prog) : Code := .loop (.seq (.other .rmm) (.seq (.fn true (handleNsSmc P)) (.other .rmm)))

/-- `rmm_entry`: head.S:134-167 with the macro at 15-40. SCTLR_EL2_INIT
(/repo/lib/arch/include/arch.h:779-819) has EnIA clear. -/
def entry (P : Prog) (cold : Bool) : Code :=
  .seq (.setEn false) (.seq .isb (.seq (P.setup cold) (.seq pauthInit (.seq (.fn true (P.main cold))
    (.seq (.other .rmm) (rmmHandler P))))))

/-- What can happen to CPU `i`. -/
inductive Act where
  | go (o : Choice)
  /-- writes of registers take effect -/
  | settle (lo hi en : Bool)
  /-- EL3 starts the CPU at `rmm_entry`, with any values in its registers; the state it had is lost -/
  | start (cold : Bool) (lo hi elo ehi : W) (en een : Bool)

/-- One step of one CPU. -/
def step (pac : PacFn) (P : Prog) (m : M) (i : Nat) : Act → Option M
  | .go o => next pac m i o
  | .settle l h e =>
    let c := m.cpu i
    some { m with cpu := upd m.cpu i { c with elo := bif l then c.lo else c.elo, ehi := bif h then c.hi else c.ehi,
                                              een := bif e then c.en else c.een } }
  | .start cold lo hi elo ehi en een =>
    some { m with cpu := upd m.cpu i ⟨lo, hi, elo, ehi, en, een, [.code (entry P cold)], false⟩ }

/-- Before the first CPU is started. The array is in `.bss`. -/
def init : M := ⟨fun _ => ⟨0, 0, 0, 0, false, false, [], false⟩, fun _ => 0⟩

/-- Runs of all CPUs, interleaved. -/
def runs (pac : PacFn) (P : Prog) : M → List (Nat × Act) → Option M
  | m, [] => some m
  | m, (i, a) :: as => (step pac P m i a).bind (runs pac P · as)

end Verif.Pac
