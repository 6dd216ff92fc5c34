import Verif.Basic
import Verif.Tac
import Verif.Leaf.Status

/-!
# C36: dispatch of host calls

Model of `handle_ns_smc` (/repo/runtime/core/handler.c:271-382), its handler table
(handler.c:136-193), the macros that take a function identifier apart
(/repo/lib/smc/include/smc.h:10-138) and the assembly that calls it
(/repo/runtime/core/aarch64/entry.S:13-43).
-/

namespace Verif.Dispatch

abbrev W := BitVec 64
abbrev Fid := BitVec 32

/-- The command implementations named in the table. -/
inductive Handler where
  | version | granuleDelegate | granuleUndelegate | dataCreate | dataCreateUnknown | dataDestroy
  | realmActivate | realmCreate | realmDestroy | recCreate | recDestroy | recEnter
  | rttCreate | rttDestroy | rttMapUnprotected | rttReadEntry | rttUnmapUnprotected
  | psciComplete | features | rttFold | recAuxCount | rttInitRipas | rttSetRipas
  deriving DecidableEq, Repr

/-- `struct smc_result`: smc.h:181-186. -/
structure Res where
  x0 : W
  x1 : W
  x2 : W
  x3 : W
  x4 : W
  deriving DecidableEq

/-- `struct smc_handler`: handler.c:93-115; `fn = none` is a NULL pointer.  The union of function
pointers is read through the member of the type the table gives; `fn_name` is left out. -/
structure Entry where
  nin : Nat
  nout : Nat
  fn : Option Handler
  logExec : Bool
  logError : Bool
  deriving DecidableEq

/-- An element no designated initialiser mentions is zero (C11 6.7.9:21). -/
def Entry.zero : Entry := ⟨0, 0, none, false, false⟩

/-- The initialisers of `smc_handlers`: handler.c:136-190, with the offsets of smc-rmi.h:232-609. -/
def handlerTable : List (Nat × Entry) :=
  [ (0x00, ⟨1, 2, some .version, true, true⟩),
    (0x01, ⟨1, 0, some .granuleDelegate, false, true⟩),
    (0x02, ⟨1, 0, some .granuleUndelegate, false, true⟩),
    (0x03, ⟨5, 0, some .dataCreate, false, false⟩),
    (0x04, ⟨3, 0, some .dataCreateUnknown, false, false⟩),
    (0x05, ⟨2, 2, some .dataDestroy, false, true⟩),
    (0x06, ⟨0, 0, none, true, true⟩),
    (0x07, ⟨1, 0, some .realmActivate, true, true⟩),
    (0x08, ⟨2, 0, some .realmCreate, true, true⟩),
    (0x09, ⟨1, 0, some .realmDestroy, true, true⟩),
    (0x0A, ⟨3, 0, some .recCreate, true, true⟩),
    (0x0B, ⟨1, 0, some .recDestroy, true, true⟩),
    (0x0C, ⟨2, 0, some .recEnter, false, true⟩),
    (0x0D, ⟨4, 0, some .rttCreate, false, true⟩),
    (0x0E, ⟨3, 2, some .rttDestroy, false, true⟩),
    (0x0F, ⟨4, 0, some .rttMapUnprotected, false, false⟩),
    (0x10, ⟨0, 0, none, true, true⟩),
    (0x11, ⟨3, 4, some .rttReadEntry, false, true⟩),
    (0x12, ⟨3, 1, some .rttUnmapUnprotected, false, false⟩),
    (0x14, ⟨3, 0, some .psciComplete, true, true⟩),
    (0x15, ⟨1, 1, some .features, true, true⟩),
    (0x16, ⟨3, 1, some .rttFold, false, false⟩),
    (0x17, ⟨1, 1, some .recAuxCount, true, true⟩),
    (0x18, ⟨3, 1, some .rttInitRipas, false, true⟩),
    (0x19, ⟨4, 1, some .rttSetRipas, false, true⟩),
    (0x20, ⟨0, 0, none, true, true⟩), (0x21, ⟨0, 0, none, true, true⟩),
    (0x22, ⟨0, 0, none, true, true⟩), (0x23, ⟨0, 0, none, true, true⟩),
    (0x24, ⟨0, 0, none, true, true⟩), (0x25, ⟨2, 0, none, true, true⟩),
    (0x26, ⟨2, 0, none, true, true⟩), (0x27, ⟨0, 0, none, true, true⟩),
    (0x28, ⟨1, 1, none, true, true⟩), (0x29, ⟨0, 0, none, true, true⟩),
    (0x2A, ⟨0, 0, none, true, true⟩), (0x2B, ⟨4, 0, none, true, true⟩),
    (0x2C, ⟨0, 0, none, true, true⟩), (0x2D, ⟨0, 0, none, true, true⟩),
    (0x2E, ⟨0, 0, none, true, true⟩), (0x2F, ⟨0, 0, none, true, true⟩),
    (0x30, ⟨0, 0, none, true, true⟩), (0x31, ⟨0, 0, none, true, true⟩),
    (0x33, ⟨0, 0, none, true, true⟩), (0x34, ⟨0, 0, none, true, true⟩),
    (0x35, ⟨0, 0, none, true, true⟩), (0x36, ⟨0, 0, none, true, true⟩),
    (0x37, ⟨0, 0, none, true, true⟩), (0x38, ⟨0, 0, none, true, true⟩),
    (0x39, ⟨0, 0, none, true, true⟩), (0x3A, ⟨0, 0, none, true, true⟩),
    (0x3B, ⟨0, 0, none, true, true⟩), (0x3C, ⟨0, 0, none, true, true⟩),
    (0x3D, ⟨0, 0, none, true, true⟩), (0x3E, ⟨0, 0, none, true, true⟩) ]

/-- The array: its last index is 0x3E, so its size is 63 (handler.c:192 asserts it at compile time). -/
def smcHandlers (i : Nat) : Entry := ((handlerTable.find? (·.1 == i)).map (·.2)).getD .zero

def numHandlers : Nat := 0x3F

/-- `SMC_SVE_HINT`: smc.h:39. -/
def SVE_HINT : Fid := (1 : Fid) <<< 16

/-- `SMC_GET_FIELD(_fid, FNUM)`: smc.h:42-43, 52-53. -/
def fnum (f : Fid) : Fid := (f >>> 0) &&& 0xFFFF

/-- `IS_SMC64_FID_STD_FAST`: smc.h:115-119.  CC is bit 30, TYPE bit 31, OEN bits 24-29 (4). -/
def isStdFast64 (f : Fid) : Bool :=
  (f &&& ~~~ ((0xFFFF : Fid) <<< 0)) == (((1 : Fid) <<< 30) ||| ((1 : Fid) <<< 31) ||| ((4 : Fid) <<< 24))

/-- `IS_SMC64_RMI_FID`: smc-rmi.h:42, smc.h:83-84, 107-109, 127-128. -/
def isRmi (f : Fid) : Bool := isStdFast64 f && (fnum f ≥ 0x150 && fnum f ≤ 0x18E)

/-- `RMI_HANDLER_ID`: handler.c:121, smc.h:137-138; unsigned 32 bit subtraction. -/
def handlerId (f : Fid) : Nat := (fnum f - 0x150).toNat

/-- The command implementations over a state `σ`: with a status only, or writing the result
structure.  `none` is an assertion failure in the command. -/
structure Fns (σ : Type) where
  ret : Handler → List W → σ → Option (σ × W)
  out : Handler → List W → Res → σ → Option (σ × Res)

/-- Status only. -/
def Fns.callRet {σ} (F : Fns σ) (h : Handler) (args : List W) (res : Res) (s : σ) : Option (σ × Res) :=
  (F.ret h args s).map fun p => (p.1, { res with x0 := p.2 })

/-- The switch on the handler type: handler.c:325-367; the default asserts. -/
def call {σ} (F : Fns σ) (e : Entry) (h : Handler) (a0 a1 a2 a3 a4 : W) (res : Res) (s : σ) : Option (σ × Res) :=
  if e.nin = 0 ∧ e.nout = 0 then F.callRet h [] res s
  else if e.nin = 1 ∧ e.nout = 0 then F.callRet h [a0] res s
  else if e.nin = 2 ∧ e.nout = 0 then F.callRet h [a0, a1] res s
  else if e.nin = 3 ∧ e.nout = 0 then F.callRet h [a0, a1, a2] res s
  else if e.nin = 4 ∧ e.nout = 0 then F.callRet h [a0, a1, a2, a3] res s
  else if e.nin = 5 ∧ e.nout = 0 then F.callRet h [a0, a1, a2, a3, a4] res s
  else if e.nin = 1 ∧ e.nout = 1 then F.out h [a0] res s
  else if e.nin = 1 ∧ e.nout = 2 then F.out h [a0] res s
  else if e.nin = 2 ∧ e.nout = 2 then F.out h [a0, a1] res s
  else if e.nin = 3 ∧ e.nout = 1 then F.out h [a0, a1, a2] res s
  else if e.nin = 3 ∧ e.nout = 2 then F.out h [a0, a1, a2] res s
  else if e.nin = 3 ∧ e.nout = 4 then F.out h [a0, a1, a2] res s
  else if e.nin = 4 ∧ e.nout = 1 then F.out h [a0, a1, a2, a3] res s
  else none

/-- The assertions of `rmi_log_on_exit`: handler.c:209-262.  `MAX_NUM_ARGS` is 5, `MAX_NUM_OUTPUT_VALS`
is 4; the output assertion is in a branch, checked here always.  What is printed is left out. -/
def logOk (e : Entry) : Bool := e.nin ≤ 5 && e.nout ≤ 4

/-- `handle_ns_smc`: handler.c:271-382.  The floating point context and the assertions about it
and about the buffer slots are left out (see `Verif.Slot` for the slots). -/
def handleNsSmc {σ} (F : Fns σ) (fid : Fid) (a0 a1 a2 a3 a4 : W) (res : Res) (s : σ) : Option (σ × Res) :=
  let f := if fid &&& SVE_HINT != 0 then fid &&& ~~~ SVE_HINT else fid
  let e := if isRmi f then (if handlerId f < numHandlers then some (smcHandlers (handlerId f)) else none) else none
  match e with
  | none => some (s, { res with x0 := BitVec.allOnes 64 })
  | some e =>
    match e.fn with
    | none => some (s, { res with x0 := BitVec.allOnes 64 })
    | some h => (call F e h a0 a1 a2 a3 a4 res s).bind fun p => if logOk e then some p else none

/-- `rmm_handler`: entry.S:13-43.  The caller's registers are `x0` (identifier, 32 bits are
used) to `x6`; the result structure starts as zero, but for X4, which keeps its value. -/
def rmmHandler {σ} (F : Fns σ) (x0 x1 x2 x3 x4 x5 : W) (s : σ) : Option (σ × Res) :=
  handleNsSmc F (x0.setWidth 32) x1 x2 x3 x4 x5 ⟨0, 0, 0, 0, x4⟩ s

/-! ## The RMI specification -/

namespace Spec

/-- The function identifiers of the RMI specification (beta0 / EAC5) that RMM 1.0 implements,
with the number of arguments and results. -/
def commands : List (Fid × Handler × Nat × Nat) :=
  [ (0xC4000150, .version, 1, 2),
    (0xC4000151, .granuleDelegate, 1, 0),
    (0xC4000152, .granuleUndelegate, 1, 0),
    (0xC4000153, .dataCreate, 5, 0),
    (0xC4000154, .dataCreateUnknown, 3, 0),
    (0xC4000155, .dataDestroy, 2, 2),
    (0xC4000157, .realmActivate, 1, 0),
    (0xC4000158, .realmCreate, 2, 0),
    (0xC4000159, .realmDestroy, 1, 0),
    (0xC400015A, .recCreate, 3, 0),
    (0xC400015B, .recDestroy, 1, 0),
    (0xC400015C, .recEnter, 2, 0),
    (0xC400015D, .rttCreate, 4, 0),
    (0xC400015E, .rttDestroy, 3, 2),
    (0xC400015F, .rttMapUnprotected, 4, 0),
    (0xC4000161, .rttReadEntry, 3, 4),
    (0xC4000162, .rttUnmapUnprotected, 3, 1),
    (0xC4000164, .psciComplete, 3, 0),
    (0xC4000165, .features, 1, 1),
    (0xC4000166, .rttFold, 3, 1),
    (0xC4000167, .recAuxCount, 1, 1),
    (0xC4000168, .rttInitRipas, 3, 1),
    (0xC4000169, .rttSetRipas, 4, 1) ]

/-- The identifier without bit 16, the SVE hint of the SMC calling convention. -/
def noHint (f : Fid) : Fid := f &&& 0xFFFEFFFF

/-- The command an identifier names. -/
def command (f : Fid) : Option (Handler × Nat × Nat) := (commands.find? (·.1 == noHint f)).map (·.2)

/-- Call a command with the first `n` arguments; a command without results only sets X0. -/
def invoke {σ} (F : Fns σ) (h : Handler) (n m : Nat) (args : List W) (res : Res) (s : σ) : Option (σ × Res) :=
  if m = 0 then (F.ret h (args.take n) s).map fun p => (p.1, ⟨p.2, res.x1, res.x2, res.x3, res.x4⟩)
  else F.out h (args.take n) res s

end Spec

/-! ## Proofs -/

theorem f_eq (fid : Fid) : (if fid &&& SVE_HINT != 0 then fid &&& ~~~ SVE_HINT else fid) = Spec.noHint fid := by
  have e : ~~~ SVE_HINT = 0xFFFEFFFF := by decide
  rw [e]
  by_cases h : fid &&& SVE_HINT = 0
  · rw [h]
    simp only [bne_self_eq_false, Bool.false_eq_true, if_false]
    unfold Spec.noHint
    apply BitVec.eq_of_getLsbD_eq
    intro i hi
    have h1 : ∀ k : Fin 32, (0xFFFEFFFF : Fid).getLsbD k = decide (k.val ≠ 16) := by decide
    have h2 : ∀ k : Fin 32, SVE_HINT.getLsbD k = decide (k.val = 16) := by decide
    have h3 := h1 ⟨i, hi⟩
    have h4 := h2 ⟨i, hi⟩
    have h5 := congrArg (fun v => BitVec.getLsbD v i) h
    simp only [BitVec.getLsbD_and, BitVec.getLsbD_zero] at h3 h4 h5 ⊢
    rw [h4] at h5
    rw [h3]
    by_cases h16 : i = 16 <;> simp [h16] at h5 ⊢
    exact h5
  · have : (fid &&& SVE_HINT != 0) = true := by simpa using h
    rw [this]; rfl

/-- An identifier in the RMI range is one of 63. -/
theorem rmi_cases (f : Fid) (h : isRmi f = true) :
    ∃ i : Fin 63, f = 0xC4000150 + BitVec.ofNat 32 i.val ∧ handlerId f = i.val := by
  simp only [isRmi, isStdFast64, Bool.and_eq_true, beq_iff_eq, decide_eq_true_eq] at h
  obtain ⟨h1, h2, h3⟩ := h
  have hn : (fnum f).toNat = f.toNat % 65536 := by
    unfold fnum
    rw [BitVec.toNat_and]
    simp only [BitVec.ushiftRight_zero]
    rw [show (0xFFFF : Fid).toNat = 2 ^ 16 - 1 by decide, Nat.and_two_pow_sub_one_eq_mod]
  have hhi : f.toNat / 65536 = 0xC400 := by
    have : (f >>> 16) = 0xC400 := by
      apply BitVec.eq_of_getLsbD_eq
      intro i hi
      have h5 := congrArg (fun v => BitVec.getLsbD v (i + 16)) h1
      have c1 : ∀ k : Fin 32, (~~~ ((0xFFFF : Fid) <<< 0)).getLsbD k = decide (16 ≤ k.val) := by decide
      have c2 : ∀ k : Fin 32, (((1 : Fid) <<< 30) ||| ((1 : Fid) <<< 31) ||| ((4 : Fid) <<< 24)).getLsbD k = (0xC4000000 : Fid).getLsbD k := by decide
      have c3 : ∀ k : Fin 16, (0xC4000000 : Fid).getLsbD (k.val + 16) = (0xC400 : Fid).getLsbD k := by decide
      by_cases hlt : i + 16 < 32
      · have e1 := c1 ⟨i + 16, hlt⟩
        have e2 := c2 ⟨i + 16, hlt⟩
        have e3 := c3 ⟨i, by omega⟩
        simp only at e1 e2 e3
        rw [BitVec.getLsbD_and, e1, e2, e3] at h5
        rw [BitVec.getLsbD_ushiftRight, Nat.add_comm, ← h5]
        simp
      · rw [BitVec.getLsbD_ushiftRight, BitVec.getLsbD_of_ge _ _ (by omega)]
        have c4 : ∀ k : Fin 32, 16 ≤ k.val → (0xC400 : Fid).getLsbD k = false := by decide
        exact (c4 ⟨i, hi⟩ (by simp only; omega)).symm
    have := congrArg BitVec.toNat this
    rw [BitVec.toNat_ushiftRight, Nat.shiftRight_eq_div_pow] at this
    exact this
  have h2' : 0x150 ≤ (fnum f).toNat := h2
  have h3' : (fnum f).toNat ≤ 0x18E := h3
  have hlt := f.isLt
  refine ⟨⟨f.toNat % 65536 - 0x150, by omega⟩, ?_, ?_⟩
  · apply BitVec.eq_of_toNat_eq
    rw [BitVec.toNat_add, BitVec.toNat_ofNat]
    show f.toNat = (0xC4000150 + (f.toNat % 65536 - 336) % 2 ^ 32) % 2 ^ 32
    omega
  · unfold handlerId
    rw [BitVec.toNat_sub, hn]
    show (2 ^ 32 - 0x150 + f.toNat % 65536) % 2 ^ 32 = f.toNat % 65536 - 0x150
    omega

/-- The table, all 63 entries: an entry has an implementation exactly when the specification has
the command, and it then has the specified number of arguments and results. -/
theorem table_ok (i : Fin 63) :
    (Spec.commands.find? (·.1 == 0xC4000150 + BitVec.ofNat 32 i.val)).map (·.2) =
      ((smcHandlers i.val).fn.map fun h => (h, (smcHandlers i.val).nin, (smcHandlers i.val).nout)) := by
  revert i; decide +kernel

theorem table_types (i : Fin 63) : logOk (smcHandlers i.val) = true ∧
    (((smcHandlers i.val).nout = 0 ∧ (smcHandlers i.val).nin ≤ 5) ∨
     (((smcHandlers i.val).nin, (smcHandlers i.val).nout) ∈ [(1, 1), (1, 2), (2, 2), (3, 1), (3, 2), (3, 4), (4, 1)])) := by
  revert i; decide +kernel

theorem call_eq {σ} (F : Fns σ) (i : Fin 63) (h : Handler) (a0 a1 a2 a3 a4 : W) (res : Res) (s : σ) :
    call F (smcHandlers i.val) h a0 a1 a2 a3 a4 res s =
      Spec.invoke F h (smcHandlers i.val).nin (smcHandlers i.val).nout [a0, a1, a2, a3, a4] res s := by
  obtain ⟨_, ht⟩ := table_types i
  generalize smcHandlers i.val = e at ht ⊢
  obtain ⟨nin, nout, fn, l1, l2⟩ := e
  dsimp only at ht
  rcases ht with ⟨rfl, h5⟩ | ht
  · have : nin = 0 ∨ nin = 1 ∨ nin = 2 ∨ nin = 3 ∨ nin = 4 ∨ nin = 5 := by omega
    rcases this with rfl | rfl | rfl | rfl | rfl | rfl <;> rfl
  · simp only [List.mem_cons, Prod.mk.injEq, List.not_mem_nil, or_false] at ht
    rcases ht with ⟨rfl, rfl⟩ | ⟨rfl, rfl⟩ | ⟨rfl, rfl⟩ | ⟨rfl, rfl⟩ | ⟨rfl, rfl⟩ | ⟨rfl, rfl⟩ | ⟨rfl, rfl⟩ <;> rfl

theorem find_range : ∀ x ∈ Spec.commands, isRmi x.1 = true := by decide

/-- C36: for every 32-bit function identifier, every implementation of the commands and all
arguments, the call reaches exactly the command the specification gives for the identifier,
with exactly its arguments; every other identifier sets X0 to NOT_SUPPORTED (-1) and changes
nothing else.  No assertion of the dispatcher can fail. -/
theorem C36_dispatch {σ} (F : Fns σ) (fid : Fid) (a0 a1 a2 a3 a4 : W) (res : Res) (s : σ) :
    handleNsSmc F fid a0 a1 a2 a3 a4 res s =
      ((Spec.command fid).map fun c => Spec.invoke F c.1 c.2.1 c.2.2 [a0, a1, a2, a3, a4] res s).getD
        (some (s, ⟨BitVec.allOnes 64, res.x1, res.x2, res.x3, res.x4⟩)) := by
  unfold handleNsSmc
  rw [f_eq]
  dsimp only
  unfold Spec.command
  generalize Spec.noHint fid = f
  by_cases hr : isRmi f = true
  · obtain ⟨i, rfl, hi⟩ := rmi_cases f hr
    rw [if_pos hr, hi, if_pos (by unfold numHandlers; omega), table_ok i]
    dsimp only
    cases hf : (smcHandlers i.val).fn with
    | none => rfl
    | some h =>
      simp only [Option.map_some, Option.getD_some]
      rw [call_eq]
      simp only [(table_types i).1, if_true]
      cases Spec.invoke F h (smcHandlers i.val).nin (smcHandlers i.val).nout [a0, a1, a2, a3, a4] res s <;> rfl
  · rw [if_neg hr]
    have : Spec.commands.find? (·.1 == f) = none := by
      rw [List.find?_eq_none]
      intro x hx hxf
      rw [beq_iff_eq] at hxf
      exact hr (hxf ▸ find_range x hx)
    rw [this]; rfl

/-- C36: the SVE hint bit makes no difference. -/
theorem C36_hint {σ} (F : Fns σ) (fid : Fid) (a0 a1 a2 a3 a4 : W) (res : Res) (s : σ) :
    handleNsSmc F (fid ||| 0x10000) a0 a1 a2 a3 a4 res s = handleNsSmc F fid a0 a1 a2 a3 a4 res s := by
  rw [C36_dispatch, C36_dispatch]
  have : Spec.noHint (fid ||| 0x10000) = Spec.noHint fid := by
    unfold Spec.noHint
    apply BitVec.eq_of_getLsbD_eq
    intro i hi
    have h1 : ∀ k : Fin 32, ((0x10000 : Fid).getLsbD k && (0xFFFEFFFF : Fid).getLsbD k) = false := by decide
    have := h1 ⟨i, hi⟩
    simp only at this
    rw [BitVec.getLsbD_and, BitVec.getLsbD_and, BitVec.getLsbD_or, Bool.and_or_distrib_right, this, Bool.or_false]
  unfold Spec.command
  rw [this]

/-- C36: no two identifiers, apart from the hint bit, reach the same command, and every command has one. -/
theorem C36_one_to_one : (∀ h, ∃ f n m, Spec.command f = some (h, n, m)) ∧
    ∀ f g h n m n' m', Spec.command f = some (h, n, m) → Spec.command g = some (h, n', m') →
      Spec.noHint f = Spec.noHint g := by
  constructor
  · intro h
    cases h
    case version => exact ⟨0xC4000150, 1, 2, by decide⟩
    case granuleDelegate => exact ⟨0xC4000151, 1, 0, by decide⟩
    case granuleUndelegate => exact ⟨0xC4000152, 1, 0, by decide⟩
    case dataCreate => exact ⟨0xC4000153, 5, 0, by decide⟩
    case dataCreateUnknown => exact ⟨0xC4000154, 3, 0, by decide⟩
    case dataDestroy => exact ⟨0xC4000155, 2, 2, by decide⟩
    case realmActivate => exact ⟨0xC4000157, 1, 0, by decide⟩
    case realmCreate => exact ⟨0xC4000158, 2, 0, by decide⟩
    case realmDestroy => exact ⟨0xC4000159, 1, 0, by decide⟩
    case recCreate => exact ⟨0xC400015A, 3, 0, by decide⟩
    case recDestroy => exact ⟨0xC400015B, 1, 0, by decide⟩
    case recEnter => exact ⟨0xC400015C, 2, 0, by decide⟩
    case rttCreate => exact ⟨0xC400015D, 4, 0, by decide⟩
    case rttDestroy => exact ⟨0xC400015E, 3, 2, by decide⟩
    case rttMapUnprotected => exact ⟨0xC400015F, 4, 0, by decide⟩
    case rttReadEntry => exact ⟨0xC4000161, 3, 4, by decide⟩
    case rttUnmapUnprotected => exact ⟨0xC4000162, 3, 1, by decide⟩
    case psciComplete => exact ⟨0xC4000164, 3, 0, by decide⟩
    case features => exact ⟨0xC4000165, 1, 1, by decide⟩
    case rttFold => exact ⟨0xC4000166, 3, 1, by decide⟩
    case recAuxCount => exact ⟨0xC4000167, 1, 1, by decide⟩
    case rttInitRipas => exact ⟨0xC4000168, 3, 1, by decide⟩
    case rttSetRipas => exact ⟨0xC4000169, 4, 1, by decide⟩
  · intro f g h n m n' m' h1 h2
    unfold Spec.command at h1 h2
    rw [Option.map_eq_some_iff] at h1 h2
    obtain ⟨x, hx, hx2⟩ := h1
    obtain ⟨y, hy, hy2⟩ := h2
    have p1 := List.find?_some hx
    have p2 := List.find?_some hy
    rw [beq_iff_eq] at p1 p2
    have m1 := List.mem_of_find?_eq_some hx
    have m2 := List.mem_of_find?_eq_some hy
    have key : ∀ x ∈ Spec.commands, ∀ y ∈ Spec.commands, x.2.1 = y.2.1 → x.1 = y.1 := by decide
    rw [← p1, ← p2]
    exact key x m1 y m2 (by rw [hx2, hy2])

/-- C36: what the host finds in its registers: for an unknown identifier X0 is -1, for a command
without results X0 is the status; X1, X2 and X3 are zero and X4 is unchanged. -/
theorem C36_registers {σ} (F : Fns σ) (x0 x1 x2 x3 x4 x5 : W) (s : σ) :
    (Spec.command (x0.setWidth 32) = none →
      rmmHandler F x0 x1 x2 x3 x4 x5 s = some (s, ⟨BitVec.allOnes 64, 0, 0, 0, x4⟩)) ∧
    (∀ h n, Spec.command (x0.setWidth 32) = some (h, n, 0) →
      rmmHandler F x0 x1 x2 x3 x4 x5 s =
        (F.ret h ([x1, x2, x3, x4, x5].take n) s).map fun p => (p.1, ⟨p.2, 0, 0, 0, x4⟩)) := by
  constructor
  · intro h
    unfold rmmHandler
    rw [C36_dispatch, h]; rfl
  · intro h n hc
    unfold rmmHandler
    rw [C36_dispatch, hc]; rfl

/-- RMI_DATA_CREATE with the hint bit: the five arguments arrive. -/
example : handleNsSmc (σ := List W) ⟨fun _ a _ => some (a, 7), fun _ _ r s => some (s, r)⟩
    0xC4010153 1 2 3 4 5 ⟨0, 0, 0, 0, 9⟩ [] = some ([1, 2, 3, 4, 5], ⟨7, 0, 0, 0, 9⟩) := by decide +kernel

/-- A PDEV command, an RSI identifier and a 32-bit PSCI identifier are not supported. -/
example : Spec.command 0xC4000156 = none ∧ Spec.command 0xC4000190 = none ∧ Spec.command 0x84000003 = none := by
  decide

end Verif.Dispatch
