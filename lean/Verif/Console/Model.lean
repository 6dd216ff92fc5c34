import Verif.Basic

/-!
# The console: the list in the boot manifest, the UART, and what is printed

rmm_el3_ifc_manifest.c:77-89 and 193-239 (the list of consoles), the console part of plat/arm/src/arm_setup.c,
drivers/pl011/src/pl011.c and lib/console/src/console.c.
-/

namespace Verif.Console

/-! ## The list of consoles -/

/-- The console part of the local copy of the boot manifest: rmm_el3_ifc.h:263-267, 283-289. -/
structure Manifest where
  version : BitVec 32
  num : BitVec 64
  ptr : BitVec 64
  checksum : BitVec 64

/-- The words that `checksum_calc` reads, and their sum: rmm_el3_ifc_manifest.c:77-89. `m` is the memory, read
with the MMU off; the loop runs from 0 to `n`. -/
def sumLoop (m : BitVec 64 → BitVec 64) (buf : BitVec 64) : Nat → BitVec 64
  | 0 => 0
  | n + 1 => sumLoop m buf n + m (buf + BitVec.ofNat 64 (8 * n))

/-- `checksum_calc`, rmm_el3_ifc_manifest.c:77-89; `none`: an assertion fails. -/
def checksumCalc (m : BitVec 64 → BitVec 64) (buf size : BitVec 64) : Option (BitVec 64) :=
  if buf &&& 7 ≠ 0 then none
  else if size &&& 7 ≠ 0 then none
  else some (sumLoop m buf (size.toNat / 8))

inductive Res where
  | ok | versionNotSupported | dataError | assertFails
  deriving DecidableEq, Repr

/-- sizeof(struct console_info): six words, rmm_el3_ifc.h:254-261. -/
def infoSize : BitVec 64 := 48

/-- `rmm_el3_ifc_get_console_list_pa`, rmm_el3_ifc_manifest.c:197-239; the assertions about the manifest and
the MMU are left out. `RMM_EL3_MANIFEST_MAKE_VERSION(0, 3)` is 3. -/
def getConsoleList (m : BitVec 64 → BitVec 64) (b : Manifest) : Res :=
  if b.version < 3 then .versionNotSupported
  else
    let checksum := b.num + b.ptr + b.checksum
    match checksumCalc m b.ptr (infoSize * b.num) with
    | none => .assertFails
    | some s => if checksum + s ≠ 0 then .dataError else .ok

/-! ## The UART -/

/-- A register of the UART: pl011.c:13-22. -/
inductive Reg where
  | ecr | ibrd | fbrd | lcrh | cr
  deriving DecidableEq, Repr

/-- `pl011_init`, pl011.c:77-114: the writes in order; `none`: -EINVAL before anything is written. The product
`uart_clk * 4U` is 32 bits wide. -/
def pl011Init (base : BitVec 64) (clk baud : BitVec 32) : Option (List (Reg × BitVec 32)) :=
  if base = 0 ∨ clk = 0 ∨ baud = 0 then none
  else
    let div := (clk * 4) / baud
    some [(.cr, 0), (.ibrd, div >>> 6), (.fbrd, div &&& 0x3f), (.lcrh, 0x10 ||| 0x60), (.ecr, 0), (.cr, 0x200 ||| 0x100 ||| 0x1)]

/-- The fields of consoles[0] that are used (rmm_el3_ifc.h:254-261); the name is eight bytes, the first one
lowest. -/
structure Info where
  base : BitVec 64
  name : BitVec 64
  clk : BitVec 64
  baud : BitVec 64

/-- The words at offsets 0, 16, 24 and 32 of consoles[0]. -/
def readInfo (m : BitVec 64 → BitVec 64) (ptr : BitVec 64) : Info :=
  ⟨m ptr, m (ptr + 16), m (ptr + 24), m (ptr + 32)⟩

/-- `strncmp(name, "pl011", sizeof("pl011")) == 0`, arm_setup.c:84: the first six bytes are p l 0 1 1 NUL. -/
def isPl011 (name : BitVec 64) : Bool := name &&& 0xffffffffffff == 0x003131306c70

/-- What `plat_setup` makes of the consoles. -/
inductive Setup where
  /-- `rmm_el3_ifc_report_fail_to_el3`, or an assertion -/
  | fail
  /-- no console -/
  | none
  /-- the UART at `base` is set up by these writes, registered as the console, and its page is mapped -/
  | uart (base : BitVec 64) (writes : List (Reg × BitVec 32))
  deriving DecidableEq, Repr

/-- The console part of `plat_setup`, arm_setup.c:71-103. The clock and the baud rate are cut to 32 bits. The
function that reports a failure does not return. The console is registered for the first time, so that
`console_register` (console.c:23-34) succeeds. -/
def platSetup (m : BitVec 64 → BitVec 64) (b : Manifest) : Setup :=
  if getConsoleList m b ≠ .ok then .fail
  else if b.num = 0 then .none
  else
    let i := readInfo m b.ptr
    if isPl011 i.name = false then .fail
    else
      match pl011Init i.base (i.clk.setWidth 32) (i.baud.setWidth 32) with
      | Option.none => .fail
      | some w => .uart i.base w

/-- `console_register`, console.c:23-34: the list of consoles has at most one. -/
def register {C : Type} (head : Option C) (c : C) : Option C × Bool :=
  match head with
  | some h => (some h, false)
  | Option.none => (some c, true)

/-! ## What is printed -/

/-- Where a CPU is in `pl011_putc`: the bytes that it still has to write; `write`: the flag register said
that there is room for the first of them. -/
inductive Pc where
  | idle
  | wait (todo : List (BitVec 8))
  | write (c : BitVec 8) (todo : List (BitVec 8))
  deriving DecidableEq

/-- The UART and the CPUs: `fifo` is the transmit FIFO, oldest byte first, with room for `cap` bytes. -/
structure St (T : Type) where
  sent : List (BitVec 8)
  fifo : List (BitVec 8)
  pc : T → Pc

/-- The bytes that `pl011_putc` writes for a character, pl011.c:57-71: the conversion to `uint8_t` is at
pl011.c:52. -/
def bytesOf (c : BitVec 32) : List (BitVec 8) :=
  if c.setWidth 8 = 10#8 then [13#8, c.setWidth 8] else [c.setWidth 8]

inductive Act (T : Type) where
  /-- `console_putc` is called (console.c:37-52) -/
  | call (t : T) (c : BitVec 32)
  /-- one access to the UART: pl011_wait (pl011.c:40-47) or the write of writechar (pl011.c:49-53) -/
  | step (t : T)
  /-- the UART sends a byte -/
  | drain

variable {T : Type} [DecidableEq T]

def set {A : Type} (f : T → A) (t : T) (a : A) : T → A := fun u => if u = t then a else f u

/-- One step; a byte that is written to a full FIFO is lost. -/
def step (cap : Nat) (s : St T) : Act T → Option (St T)
  | .call t c => if s.pc t = .idle then some { s with pc := set s.pc t (.wait (bytesOf c)) } else Option.none
  | .step t =>
    match s.pc t with
    | .idle => Option.none
    | .wait [] => some { s with pc := set s.pc t .idle }
    | .wait (c :: cs) => if s.fifo.length < cap then some { s with pc := set s.pc t (.write c cs) } else some s
    | .write c cs =>
      some { s with fifo := if s.fifo.length < cap then s.fifo ++ [c] else s.fifo, pc := set s.pc t (.wait cs) }
  | .drain =>
    match s.fifo with
    | [] => Option.none
    | c :: cs => some { s with sent := s.sent ++ [c], fifo := cs }

def run (cap : Nat) (s : St T) : List (Act T) → Option (St T)
  | [] => some s
  | a :: as => (step cap s a).bind fun s' => run cap s' as

def init : St T := ⟨[], [], fun _ => .idle⟩

end Verif.Console
