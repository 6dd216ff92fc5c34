import Verif.Log.Printf

/-!
# Logging of realm calls

`runtime/rsi/logger.c`, which `handle_realm_rsi` (runtime/core/exit.c:384-474)
uses to print a line for every SMC of a realm when `RSI_LOG_LEVEL` is set.
`nd` tells whether the build defines `NDEBUG`, which turns `assert` into
nothing.
-/

namespace Verif.Log

/-- logger.c:15 -/
def MAX_NAME_LEN : Nat := 29

/-- logger.c:17-23: `PARAMS_STR_LEN` is 10 times 17, `MAX_STATUS_LEN` is 18
and `sizeof(" > ") - 1` is 3 -/
def BUFFER_SIZE : Nat := MAX_NAME_LEN + 10 * 17 + 3 + 18

/-- `assert(c)` -/
def assertC (nd c : Bool) : Res Unit := if c || nd then .ok () else .assertion

/-- subtraction of `size_t` -/
def subSize (a b : Nat) : Nat := (a + 2 ^ 64 - b) % 2 ^ 64

/-- `(int)len` of a `size_t` -/
def toInt (n : Nat) : Int := (BitVec.ofNat 32 n).toInt

/-- `memset` of `n` characters from `i` on -/
def memset (b : Buf) (i : Nat) (c : Char) : Nat → Res Buf
  | 0 => .ok b
  | n + 1 => do
    let b ← put b i c
    memset b (i + 1) c n

/-- `struct rsi_handler`, logger.c:27-31; `none` for a null name -/
structure Handler where
  name : Option String
  args : Nat
  vals : Nat
  deriving DecidableEq, Repr

/-- `rsi_logger`, logger.c:41-67, indexed by the offset of the function
identifier (`RSI_HANDLER_ID`, 33-39; offsets from lib/smc/include/smc-rsi.h:101-295).
The entries not initialised are zero. -/
def handlerAt : Nat → Handler
  | 0x00 => ⟨some "_VERSION", 1, 2⟩
  | 0x01 => ⟨some "_FEATURES", 1, 1⟩
  | 0x02 => ⟨some "_MEASUREMENT_READ", 1, 8⟩
  | 0x03 => ⟨some "_MEASUREMENT_EXTEND", 10, 0⟩
  | 0x04 => ⟨some "_ATTEST_TOKEN_INIT", 8, 1⟩
  | 0x05 => ⟨some "_ATTEST_TOKEN_CONTINUE", 3, 1⟩
  | 0x06 => ⟨some "_REALM_CONFIG", 1, 0⟩
  | 0x07 => ⟨some "_IPA_STATE_SET", 4, 2⟩
  | 0x08 => ⟨some "_IPA_STATE_GET", 2, 2⟩
  | 0x09 => ⟨some "_HOST_CALL", 1, 0⟩
  | 0x10 => ⟨some "_MEM_GET_PERM_VALUE", 2, 1⟩
  | 0x11 => ⟨some "_MEM_SET_PERM_INDEX", 4, 3⟩
  | 0x12 => ⟨some "_MEM_SET_PERM_VALUE", 3, 0⟩
  | 0x13 => ⟨some "_PLANE_ENTER", 2, 0⟩
  | 0x14 => ⟨some "_RDEV_CONTINUE", 2, 0⟩
  | 0x15 => ⟨some "_RDEV_GET_INFO", 2, 0⟩
  | 0x16 => ⟨some "_RDEV_GET_INTERFACE_REPORT", 3, 1⟩
  | 0x17 => ⟨some "_RDEV_GET_MEASUREMENTS", 3, 0⟩
  | 0x18 => ⟨some "_RDEV_GET_STATE", 2, 1⟩
  | 0x19 => ⟨some "_RDEV_LOCK", 2, 0⟩
  | 0x1a => ⟨some "_RDEV_START", 2, 0⟩
  | 0x1b => ⟨some "_RDEV_STOP", 2, 0⟩
  | 0x1c => ⟨some "_RDEV_VALIDATE_MAPPING", 6, 2⟩
  | 0x1e => ⟨some "_PLANE_REG_READ", 2, 1⟩
  | 0x1f => ⟨some "_PLANE_REG_WRITE", 3, 0⟩
  | _ => ⟨none, 0, 0⟩

/-- `SMC_RSI_VERSION ... SMC_RSI_PLANE_REG_WRITE`, smc-rsi.h:101 and 295 -/
def isRsi (id : BitVec 32) : Bool := 0xC4000190#32 ≤ id && id ≤ 0xC40001AF#32

/-- the two PSCI ranges, runtime/include/psci.h:19-23 -/
def isPsci (id : BitVec 32) : Bool :=
  (0x84000000#32 ≤ id && id ≤ 0x84000014#32) || (0xC4000000#32 ≤ id && id ≤ 0xC4000014#32)

/-- `fid_to_rsi_logger`, logger.c:82-85 -/
def handler (id : BitVec 32) : Handler := handlerAt (id - 0xC4000190#32).toNat

/-- an argument of type `unsigned int` -/
def word32 (x : BitVec 32) : Arg := .word (x.setWidth 64)

/-- the call of `snprintf` for the name, logger.c:93-118 -/
def printName (b : Buf) (id : BitVec 32) : Res (Buf × Int) :=
  if isRsi id then
    match (handler id).name with
    | some n => snprintf b 0 (MAX_NAME_LEN + 1) "%s%s" [.text "SMC_RSI".toList, .text n.toList]
    | none => snprintf b 0 (MAX_NAME_LEN + 1) "%s" [.text "SMC_RSI_<unsupported>".toList]
  else if isPsci id then snprintf b 0 (MAX_NAME_LEN + 1) "%s%08x" [.text "PSCI_".toList, word32 id]
  else snprintf b 0 (MAX_NAME_LEN + 1) "%s%08x" [.text "SMC_".toList, word32 id]

/-- the loops over the arguments, logger.c:129-134, and over the output
values, 184-189: both print a word at `buf`, check `cnt` and move on.  (The
second moves at the head of the round; `rsi_log_on_exit` below passes it the
position after the status.) -/
def printWords (nd : Bool) : List (BitVec 64) → Buf → Nat → Nat → Res (Buf × Nat × Nat)
  | [], b, buf, len => .ok (b, buf, len)
  | x :: r, b, buf, len => do
    let (b, cnt) ← snprintf b buf len " %lx" [.word x]
    assertC nd (0 < cnt && cnt < toInt len)
    printWords nd r b (buf + cnt.toNat) (subSize len cnt.toNat)

/-- how many arguments are printed, logger.c:90 and 97 -/
def numArgs (id : BitVec 32) : Nat := if isRsi id then (handler id).args else 7

/-- how many output values are printed, logger.c:163 and 173 -/
def numVals (id : BitVec 32) : Nat := if isRsi id then (handler id).vals else 3

/-- `print_entry`, logger.c:87-137: buffer, where it ends up, room left.
`args` is the array made by `RSI_LOG_SET` (runtime/include/rsi-logger.h:29-33). -/
def printEntry (nd : Bool) (b : Buf) (id : BitVec 32) (args : Nat → BitVec 64) : Res (Buf × Nat × Nat) := do
  let (b, cnt) ← printName b id
  assertC nd (0 < cnt && cnt < MAX_NAME_LEN + 1)
  let b ← memset b cnt.toNat ' ' (subSize MAX_NAME_LEN cnt.toNat)
  printWords nd ((List.range (numArgs id)).map args) b MAX_NAME_LEN (subSize BUFFER_SIZE MAX_NAME_LEN)

/-- `rsi_status_string`, logger.c:71-78, by status code -/
def statusName : Nat → String
  | 0 => "SUCCESS"
  | 1 => "ERROR_INPUT"
  | 2 => "ERROR_STATE"
  | 3 => "INCOMPLETE"
  | 4 => "ERROR_UNKNOWN"
  | _ => "ERROR_DEVICE"

/-- `print_status`, logger.c:139-149, with `unpack_return_code`
(lib/common/include/status.h:63-67): the status is the low byte -/
def printStatus (b : Buf) (buf len : Nat) (res : BitVec 64) : Res (Buf × Int) :=
  if 6 ≤ res.toNat % 256 then snprintf b buf len " > %lx" [.word res]
  else snprintf b buf len " > RSI_%s" [.text (statusName (res.toNat % 256)).toList]

/-- `print_code`, logger.c:151-154 -/
def printCode (b : Buf) (buf len : Nat) (res : BitVec 64) : Res (Buf × Int) :=
  snprintf b buf len " > %lx" [.word res]

/-- the status or the result code, logger.c:166-179 -/
def printResult (b : Buf) (id : BitVec 32) (buf len : Nat) (res : BitVec 64) : Res (Buf × Int) :=
  if isRsi id then printStatus b buf len res else printCode b buf len res

/-- what `%s` prints of an array: the characters before the first zero; there
must be one -/
def cString (b : Buf) : Res (List Char) :=
  if Char.ofNat 0 ∈ b then .ok (b.takeWhile (· ≠ Char.ofNat 0)) else .outside

/-- `rsi_log_on_exit`, logger.c:157-192: the characters handed to the console.
`junk` is what the stack buffer holds at first. -/
def rsiLogOnExit (nd : Bool) (junk : Buf) (id : BitVec 32) (args regs : Nat → BitVec 64) : Res (List Char) := do
  let (b, buf, len) ← printEntry nd junk id args
  let (b, cnt) ← printResult b id buf len (regs 0)
  assertC nd (0 < cnt && cnt < toInt len)
  let (b, _, _) ← printWords nd ((List.range (numVals id)).map fun i => regs (i + 1)) b (buf + cnt.toNat)
    (subSize len cnt.toNat)
  let s ← cString b
  .ok (s ++ ['\n'])

/-- The logging in `handle_realm_rsi`: identifier and arguments are taken on
entry (exit.c:387 and 391), the results when the call has been handled (471). -/
def logCall (nd : Bool) (junk : Buf) (before after : Nat → BitVec 64) : Res (List Char) :=
  rsiLogOnExit nd junk ((before 0).setWidth 32) (fun i => before (i + 1)) after

end Verif.Log
