# Formal model of TF-RMM: design

The subject is the TF-RMM source in /repo, read as text, never built or run.  The model and the
proofs are in Lean 4 under `lean/Verif/`; `lake build` in `lean/` checks all of it.
`properties.jsonl` states the properties in English, `MANIFEST.json` maps each one to the theorems
that prove it, `AXIOMS.md` lists the axioms every one of these theorems depends on, and
`seeded/LOG.jsonl` records the wrong programs the theorems were tried against.

## 1. Trusted base

* **Lean 4.33.0 kernel.**  No `sorry`, `admit`, `axiom`, `native_decide`, `bv_decide`,
  `implemented_by` or `unsafe` anywhere.
* **Axioms.**  At most `propext`, `Classical.choice` and `Quot.sound`, the three axioms of
  standard Lean; per theorem in `AXIOMS.md`, printed by `#print axioms`.
* **Faithfulness of the model.**  The model is written by hand from the C text.  Each definition
  cites the file and lines it stands for and says where it simplifies.
* **The specification side.**  Each property file has its own small specification (for instance
  `view`/`hwWalk`, which read tables the way the hardware walk does, or `Filtered`, which lists
  what may appear in the exit structure).  These definitions have to be read to know what is claimed.
* **Not modelled, assumed**: the C compiler and the assembler; the Arm architecture beyond the
  parts listed in section 2 (granule protection check, stage 1 and stage 2 walks, TLB, atomics with
  sequential consistency); EL3 firmware, whose answers are inputs; mbedTLS, PSA, QCBOR and t_cose
  (hashes are arbitrary functions of the right output length, tokens arbitrary byte strings);
  memory ordering weaker than sequential consistency; caches; that EL3 switches
  the EL2 registers of the two worlds (HCR_EL2, MDCR_EL2, VTCR_EL2, VTTBR_EL2, VMPIDR_EL2, VSESR_EL2, ELR_EL2, SPSR_EL2 of
  the host: `Verif.Switch.el3Restores`).

Everything the host, the realm software, EL3 or the hardware decides (arguments, memory contents,
faults, interleavings, signing outcomes, register values at an exit) is a universally quantified
input.  A failing `assert`, `panic` or an access outside an object is a separate outcome
(`none`, `outside`, `fault`), never an ordinary value.

## 2. What is modelled, and how

| modules | code | form |
|---------|------|------|
| `S2tte/*` | lib/s2tt/src/s2tt.c, descriptor constructors, predicates, PA extraction, host descriptors | bit-exact on `BitVec 64`, both descriptor formats (LPA2 or not), all levels |
| `Geometry/*` | runtime/rmi/realm.c:80-232, s2tt.c:183-226 | arithmetic on `Nat`, levels are `Int` |
| `Leaf/Status, Mpidr, Features, Dispatch, Gic` | status.h, rec.h MPIDR helpers, feature.c and `validate_realm_params`, handler.c SMC dispatch with entry.S, gic.c | bit-exact |
| `Dram/*` | rmm_el3_ifc_manifest.c DRAM part, arm_memory.c, arm_granule.c | 64-bit arithmetic with wrap-around |
| `LockSet/*` | granule.c:112-236 (sort, find_lock_granules) | state changes by other CPUs between any two lock operations |
| `Heap/*` | lib/allocator/src/memory_alloc.c | headers, free list and bytes; wrap-around; access to a non-header is a failure |
| `Meas/*` | lib/measurement, rsi/realm_attest.c measurement calls | bytes; any hash function |
| `Rmm/State, Cmd, Step` | all RMI commands of runtime/rmi/*.c (granule, realm, rtt, rec, run admission), PSCI completion, VMID bitmap, EL3 granule transitions | one total function per command on a state with granule states, reference counts, tables, contents, RDs, RECs, VMIDs, address spaces and measurement log |
| `Run/*` | rmi/run.c, core/exit.c, core/run.c, core/sysregs.c, core/inject_exp.c, core/timers.c, runtime/rsi/*.c (the walk of realm_ipa_helper.c is a parameter here; `Rmm/Ipa` models it and `Run/PropIpa` joins the two) | one REC with its registers, its realm's memory and the exit structure; `Run/Sys` has any number of RECs |
| `Log/*` | lib/libc/src/printf.c, runtime/rsi/logger.c | characters in a bounded buffer |
| `Xlat/*` | lib/xlat: contexts, region checks, table builder, descriptors, search for the last table | 64-bit descriptors in an array of tables; independent stage 1 walk |
| `Slot/*` | lib/slot_buf, lib/xlat slot map/unmap, ns_access.S | per-CPU table and TLB, arbitrary caching; copy loops with a fault at any word |
| `Simd/*` | lib/arch simd.c, simd.h, simd_helpers.S; their use in handler.c, exit.c, run.c, rec.c | registers in 128/16 bit units, ZCR/SMCR/SVCR, trapping instructions and assertions as `none`; the host, realms and RMM's own use are arbitrary within what CPTR_EL2 allows; what a write does past the vector length is a parameter; EL3 keeps the SIMD registers and switches CPTR_EL2 |
| `Switch/*` | core/aarch64/run-asm.S and vectors.S (entry from and exit to the realm), core/run.c register moves, lib/arch pmu.c and pauth.c, lib/gic save/restore | an interpreter for the 16 kinds of instruction used; registers with side effects (PMCR_EL0.P/C, SET/CLR views, PMSELR_EL0); the realm does anything EL2 controls allow |
| `Desc/*` | the table functions of s2tt.c and the commands of rtt.c and realm.c that use them, on 64-bit words with the helpers of `S2tte` | refinement of `Rmm`; table contents and MMU walk are words, all other state is shared |
| `Vtcr/*` | runtime/rmi/rec.c:37-141 (VTCR_EL2, VTTBR_EL2, MDCR_EL2 of a REC) | the MMU's start of a walk is specified for 4KB granules only; the machine of `Rmm` supplies the reachable realm descriptors |
| `Atom/*` | the commands of rtt.c with the locks of find_lock_granules and s2tt_walk_lock_unlock | one step per lock acquisition, any number of CPUs, every interleaving; the part of a command after its walk is one step under the lock of the last table; refinement of `Rmm` |
| `Trap/*` | ns_access.S, the vectors and `el2_sync_cel` of vectors.S, handle_rmm_trap, ns_buffer_read/write | one step per instruction, the host acts between any two; GPF as the only exception; handle_rmm_trap is one step bound by the procedure call standard; a GPF on a table walk or an external abort is fatal in the code and not modelled |
| `Mem/*` | memset.S, memcpy.c, memmove.c, memcmp.c, strnlen.c, strlcpy.c, granule_memzero_mapped, cache_helpers.S | memset instruction by instruction (flags: only Z); the C functions as loops over bytes; memory is a function from 64-bit addresses to bytes, with a set of addresses that may be accessed; barriers are left out |
| `Boot/*` | helpers.S (fixup_gdt_reloc), head.S, rmm_el3_ifc_helpers.S, the checks of rmm_el3_ifc.c, xlat_helper.S, mov_imm, the layout of xlat_high_va.h; attestation_key.c, attestation_rnd.c, attestation_init | relocation loops word by word; a start of a CPU is one step, because cold boot is over before EL3 starts another CPU; setting registers and the C functions after the argument checks are left out (C44, C46 treat them); Mbed TLS and t_cose are oracles; the public key is left out, only its hash is kept |
| `Vmid/*` | vmid.c, the calls in smc_realm_create and smc_realm_destroy | array of 64-bit words, atomic bit operations as in atomics.h, any number of CPUs; interleaving |
| `Attest/*` | attestation_token.c, handle_rsi_attest_token_init | bytes; QCBOR (not in the tree) modelled after its documentation with a bounded buffer, insertion of heads and sticky errors; of t_cose only what it adds to the buffer; the decoder is written from RFC 8949 |
| `Xlat/Mmu*` | xlat_tables_arch.c, enable_mmu.S, the start in head.S, plat_common_init.c, arm_setup.c, xlat_high_va.c | register words; stage 1 of the EL2&0 regime written from the architecture (4 KB granules, no TBI); barriers and TLB maintenance have no effect in this model; the linker's symbols are free variables |
| `Atom/Rsi*` | realm_ipa_helper.c as used by host_call.c, config.c, realm_attest.c (realm_attest.c:37-136) and exit.c:78-101, lock by lock, next to the commands of `Atom/*` | contents of a page as a whole; the copy of `s2_ctx` in the REC is read as the realm descriptor's (same fields, which never change); one REC on one CPU is a rule of the machine (REC_ENTER takes the reference: C70) |
| `Weak/Spin*`, `Weak/Wake` | spinlock.h (32-bit), the waiting loop of granule_lock.h | one step per instruction; exclusive monitors and event registers as in the Arm ARM: a store by another CPU opens the monitor, opening it is an event, a store-exclusive fails exactly if the monitor is open, which may happen at any time; the data under the spinlock as in `Weak/*`; no exceptions between the instructions |
| `Atom/PropUnlock` | `__granule_assert_unlocked_invariants` (granule.h:71-118) on the descriptors of the machine of `Atom/Rsi` | a command changes state and count of a granule in one step under its lock |
| `Console/*` | the list of consoles (rmm_el3_ifc_manifest.c), the console part of plat_setup (arm_setup.c), pl011.c, console.c | memory is read word by word with the MMU off; the UART is a FIFO of any size from which bytes are sent at any time; one access to the UART per step, CPUs interleave; the buffering of printf is left out (C40 treats the text) |
| `Trap/Crash` | the register dump of vectors.S, backtrace.c | `ats1e2r` is any predicate, `xpaci` any function; the text of the other lines of fatal_abort is left out |
| `Heap/Cpus` | ctx_per_cpu, attestation_utils.c, the heap part of rec_run_loop | any number of CPUs and RECs; an operation of the allocator is one step, which `C78_exclusive` justifies; the library frees and writes only what it has allocated from the heap in use (it is not modelled); checking and counting the reference in REC_ENTER is one step, because it is done under the lock |
| `Pac/*` | lib/arch/src/pauth.c and its callers in head.S, entry.S, core/run.c | code is a tree of calls, branches, loops and register writes; the handlers are any such tree that does not write the registers concerned; the code in a pointer is any function of key, address and SP; register writes take effect at the next isb or at any time before |
| `Vtcr/Arch` | core/init.c:26-61, rec.c:106-141, run.c:164 | a history of starts, creations and entries; CNTHCTL_EL2 belongs to `Switch` |
| `Mem/Str` | lib/libc/src/{strlen,strcmp,strncmp,strchr}.c | bytes, with permission for each read |
| `Life/*` | REALM_CREATE, REALM_DESTROY, REC_CREATE, REC_DESTROY (realm.c:222-549, rec.c:170-440) with vmid_reserve / vmid_free, next to the commands of `Atom/*` | one step per lock acquisition, VMID operation, auxiliary granule and freed table, any number of CPUs, every interleaving; a granule's zeroing and its change of state are one step under its lock; the validity checks of the parameters are one step on the page read at the start |
| `Switch/First` | rec.c `init_rec_sysregs`, `init_common_sysregs`, `init_rec_regs`, the filling of the REC in `smc_rec_create`, `psci_reset_rec`, gic_cpu_state_init, REC_ENTER's part for a REC that has not run | values of VTCR_EL2 and VTTBR_EL2 are parameters (C51); SIMD is in `Simd` |
| `Weak/*` | granule_lock.h, the descriptor operations of granule.h and atomics.h, the acquire read of memory.h, as used by the RMI handlers and by REC_ENTER (run.c:197-333) | views and messages (release/acquire), one granule, at most one reference at a time as for a REC; CPUs may also learn of writes by any other means; no thin-air reads, no compiler reordering |
| `Sign/*` | attestation_el3_token_sign.c, t_cose_el3_token_sign.c, the token calls of realm_attest.c and attestation_token.c, all with ATTEST_EL3_TOKEN_SIGN | one step per lock operation and per access to another REC's data, any number of CPUs; spinlocks are words that a `memset` clears; a signature is the hash it signs; t_cose and QCBOR (not in the tree) are assumed to call the adapter as its comments say and to keep the signature in the token buffer |
| `Ni/*` | no further code | two runs of `Rmm` at once: the part of a state that the host and some realms may see, and what they see happen |
| `Conc/*` | lock, reference and slot operations of every RMI/RSI handler; 16-bit granule descriptor word | control-flow skeletons, any number of CPUs, every interleaving of atomic accesses |

Main simplifications, each repeated at the definition concerned:

* **Atomic commands.**  `Rmm` runs each command as one step.  The table commands
  let go of locks while they run: `Atom` runs them lock by lock on any number of CPUs and proves that this
  makes no difference (C65).  The four commands that create and destroy realms and RECs do so, too: `Life` runs
  them step by step next to the table commands and says what difference it makes (C81, finding 44).  The other
  commands hold all their locks at the point where they act; they stay
  single steps that wait for the granules they lock (`foot`).  The walks of RSI
  handlers (realm_ipa_helper.c), and their accesses to the page they found, run next to them in C73.  Not covered: parameter
  pages in host memory, which `Rmm` gets as arguments.  `Conc` models the locks by themselves (C40, C41, C58).  Commands that touch shared data
  outside locks (REC_ENTER against PSCI_COMPLETE, REC destruction) are split in several steps in `Rmm`.
* **Decoded table entries.**  `Rmm` keeps entries in decoded form; `Desc` runs the same commands on
  64-bit words and proves that the two machines agree on every run (C64).
* **Granules are addresses.**  `granule_addr`/`find_granule` are bijections on tracked memory (C43).
* **Control-flow skeletons** in `Conc` keep the order of lock, reference, state and slot operations
  and turn every condition into a free choice.  Statements about all traces therefore hold for all
  executions; the converse (a trace exists in C) is used only for the counterexample about REC_CREATE,
  which is repeated in `Rmm` with concrete arguments.
* **Assertions about pointers kept by RMM** (a table descriptor leads to a granule of type RTT,
  `rec->realm_info.g_rd` to an RD) are not assumed in `Rmm` but proved (C07); `Conc` assumes them.

Not modelled: the SPDM and device assignment code, the libraries outside this repository (Mbed TLS, t_cose, QCBOR are
oracles with the properties stated at their use), the printing of translation tables, `rmm_main` beyond the calls treated
under C44, C68, C69, C79 and C80, and everything EL3 and the hardware do.

## 3. Method

1. Command specifications (`Rmm/Spec*`): under the invariant a command either returns an error and
   changes nothing, or succeeds with an effect stated as a structure.
2. `Rmm/Inv`: one invariant with ghost data (which realm and address each table and data granule
   belongs to, the RECs of each realm); `Rmm/Pres*` show that each step keeps it; `step_inv` is the
   induction step, `Reach` the reachable states (any finite sequence of host, realm and hardware steps).
3. Property files (`Prop*`) use their own vocabulary.  Each theorem is followed by an `example` that
   meets its hypotheses with a concrete, non-trivial state (usually an execution evaluated by the
   kernel).
4. A property that is false of the code has (a) the witness, a concrete execution evaluated by the
   kernel, and (b) a theorem with suffix `_partial` that shows what remains true, as strong as possible.

## 4. Per property

"R" means: for every state reachable by any finite sequence of operations, by induction (`Reach`).

| id | modelled | proved how |
|----|----------|------------|
| C01 | Rmm: granule states, EL3's address space map | R; exact effect of both commands; `C01_moves` lists the only operations that move a granule |
| C02 | Rmm: contents of granules | R; `C02_delegated_zero`, used for what is handed back and for what new objects start from |
| C03 | Rmm: tables, data granules | R; ghost map from data granules to addresses; uniqueness and existence against `view` |
| C04 | Rmm | R; leaf of every address by half; translation by the hardware walk; origin of NS mappings by history |
| C05 | Rmm | per step and for histories: everything another realm can observe is equal |
| C06 | Rmm | error status implies identical state, all commands but one; the exception is proved as such |
| C07 | Rmm: `none` is an assertion | R; `C07_no_assertion_partial` excludes all but four reachable assertion failures, which are witnessed |
| C08-C14 | Rmm | R; exact effect on `view` of every address of every realm, and on the objects concerned |
| C15 | Rmm | per step, then for histories of an active realm; contents included |
| C16, C17 | Rmm, S2tte | answers compared with the hardware walk; C17 false at level -1 (witness) |
| C18 | S2tte | bit level, every kind, level and address; injective; independent reading of the architecture |
| C19, C20 | Geometry | arithmetic for all widths and levels |
| C21, C50 | Leaf/Features | decision logic as iff |
| C22-C24 | Rmm, Vmid | R; the VMID bitmap by bits, with concurrent calls as an invariant; decision logic as iff for REALM_DESTROY and REALM_CREATE |
| C25 | Leaf/Mpidr | bit level |
| C26 | Run | error priority as one function; two error returns with effects are witnessed |
| C27 | Run | invariant of a REC between runs; exact register result |
| C28 | Run | field by field specification of the exit structure for every exit; false in two places (witnesses) |
| C29-C31 | Run, Run/Sys | request, what may happen in between, answer; deviations witnessed |
| C32, C33 | Meas, Rmm | log equals the history of successful commands (R); digest is the fold; injective layouts |
| C34 | Run | induction over the calls of a REC |
| C35, C36 | Leaf | bit level; full function identifier space |
| C37 | Leaf/Gic | bit level; induction over list registers; histories of entry and exit |
| C38 | Heap | invariant by induction over client operations, writes by the client included |
| C39 | Rmm/PropTlb | TLB as a set of cached translations that never forgets; false for three commands (witnesses) |
| C40, C41 | Conc | every interleaving of atomic accesses of any number of CPUs; wait-for graph by a measure on locks |
| C42 | LockSet | all inputs; insertion sort proved; all-or-nothing under interference |
| C43, C44 | Dram | induction over banks; C44 false for a wrapping bank (witness) |
| C45, C56 | Log | the exact line; writes confined for every format; false for one call name (witness) |
| C46 | Xlat | induction over the builder's recursion; independent walk; the search for the last table by induction over the walk |
| C47, C58 | Conc, Slot | all traces of all handlers; per-CPU table with TLB; copy loops |
| C48 | Run | every function identifier and register file |
| C49 | Run | every trapped instruction by syndrome; two asserting cases witnessed |
| C52 | Rmm | per step, and for histories |
| C53 | Ni | unwinding on (R): `low` erases what the coalition may not see; every operation commutes with erasing; operations hidden from the coalition change nothing visible; visible ones with the same label keep the visible parts equal; then induction on the traces. `Same` lists the visible part independently and is proved equivalent. What a realm's registers give away in an exit (host call, MMIO data) is in Run, not here; timing, caches and power are not modelled |
| C54 | Rmm/Ipa, Run/PropIpa | the walks of realm_ipa_helper.c over the machine's tables (R), joined with the RSI handlers |
| C55 | Run/PropTimer | every run of the loop, and over histories of entries and exits: what the host was last told is what the realm runs with |
| C59 | Run/PropInject | bit-exact values, against a table of the architecture written separately; every caller |
| C60 | Run/PropTimer, Run/PropErr | two-run statements: entries that differ only in what the host may not decide give the same run; and what an entry can change of a REC before the realm runs, field by field |
| C61 | Simd/Props | invariant over all CPUs and RECs; each theorem follows the registers of one owner through any sequence of operations that does not let that owner run |
| C62 | Switch | assembly: symbolic execution for all register and memory contents; register moves: closed forms of the loops; runs by induction over rounds; host counters beyond the realm's are lost (two theorems), a pending SError too, and DISR_EL1 of a realm is not switched |
| C51 | Vtcr | register values decoded by a specification of the MMU's first access (`Vtcr/Spec`); a table over all geometries the invariant allows; equivalence with alignment of the base address; false without it (two reachable witnesses) |
| C64 | Desc | the RTT, DATA, RIPAS and REALM_CREATE commands once more on 64-bit words; forward simulation to `Rmm.step` for every command under its invariant, then induction over runs; the MMU's decoding of a word (`hwDecode`) is a separate specification by bit position |
| C65 | Atom | table commands as programs over granule locks; an invariant ties each CPU's position to the tables of `Rmm.InvG` (what a CPU has locked or read stays valid whatever others do), each completing step is `Rmm.step`; deadlock freedom by a rank that decreases along waits; DATA_CREATE's error code excepted (witness) |
| C63 | Trap | an invariant with one case per phase of the copy and of the exception path, with a rank that every instruction decreases; the host's actions keep it; `Entry` (the hypotheses) is discharged from the assertions of ns_buffer_read/write |
| C66, C67 | Sign | invariants over all interleavings: at most one CPU runs a REC, tickets of requests and responses are at most the context's (so a match means the same request); a second invariant for executions without writes to other RECs; four witnesses for the others; every taken lock has a holder, and a holder chain that ends in a CPU that can move; the leaked lock by an invariant over all later executions |
| C57 | Mem | symbolic execution of memset.S from label to label, with an invariant for each of its two loops and one case per bit of the count; loop invariants over offsets modulo 2^64 for the C functions; what must hold is stated with ranges of addresses only |
| C68 | Boot | loop invariants for the two relocation loops, with the table shown to be out of reach of its own relocations; the value each word must have is stated by cases, the last relocation winning; an invariant over all sequences of starts; bit by bit for `mov_imm` |
| C69 | Boot | induction on the answers of EL3 with the state of the loop general; `want` says what EL3 handed over without reference to the code; all paths of the key function by cases |
| C70 | Weak | forward simulation of the weak machine by one with a single memory, by an invariant that says which views have reached the newest timestamps; what reads return is then stated over traces alone; one witness per ordering that is left out |
| C71 | Attest | the encoder's operations compose to strings with a known decoding; independent decoder; sizes added up |
| C72 | Xlat/Mmu* | the field values of TCR for all ID registers from one finite table; T0SZ survives the second write by a bit argument; the walk the registers describe is shown to be the walk of C46; regions looked up by cases |
| C73 | Atom/Rsi* | the invariant of C65 plus, for each RSI call, that its REC runs and that the address found is what the locked table says; every step of every CPU keeps it because a locked table stays as it is; `Does` says what an event means if it happens at once |
| C74 | Weak/Spin*, Weak/Wake | simulation by the ideal machine of C70; invariant: a CPU at WFE has an event or an armed monitor and the lock is taken; a rank that each instruction lowers while the lock is free; witnesses for each ordering that is left out |
| C75 | Atom/PropUnlock | the counts are in the invariant of the reachable states (C07), which the interleavings preserve (C73); the descriptor word is rebuilt from state and count |
| C76 | Console/* | sums as numbers; the divisor by Euclid; invariant: sent ++ FIFO ++ still to write = what was printed, and a CPU about to write has room; a rank for the end; partial because of findings 38-40 |
| C77 | Trap/Crash | induction on the list of pushes and on the iterations left; the good prefix of the list of records is specified by iterating the parent link |
| C78 | Heap/Cpus | invariant: the heap of a CPU is determined by where it is, and the reference count of a REC is the number of CPUs that run it, at most one; states of heaps are those of C38 |
| C79 | Pac/* | a type system for code trees: what is known about EnIA and the key, and whether a signed return address is on the stack; typed code keeps the invariant that each saved address carries the code of the key that will be in effect when it is checked; the program of RMM is typed for all plain handlers |
| C80 | Vtcr/Arch | invariant over histories: the bits of MDCR_EL2 from 7 on are those of start-up on every CPU and in every REC; partial because of finding 43 |
| C81 | Life | the memory is that of a serial run plus an overlay (`ov T s`) of what commands under way have taken or not yet freed; an operation that does not meet the overlay commutes with it (`step_ov`, `go_sim`); the invariant `LInv` says which CPU owns which part of the overlay and is kept by every step; deadlock freedom by the rank of C65, extended (what a command has still to free is locked by nobody else); strict linearizability of failures is false of the code (finding 44) and not claimed |
| C82 | Log/PropConv | the parser is shown to read back every conversion written from a small syntax (`Spec.Conv`), and each conversion to give the text of a separate transcription of the standard (`Spec.Conv.text`); whole formats by induction; partial because of finding 45 |
| C83 | Switch/First | REC_CREATE's writes on a page of zeros, CPU_ON and the first REC_ENTER, then `C62_loaded`; the life of a REC by induction over starts, entries and runs; false of DISR_EL1 (`C83_disr`) |
| C84 | Rmm/PropInit | the invariant `Expect` of a NEW realm, kept by every step (`view_step`, `contrib_step`), relates each page to the last event of the log that concerns it; the log is recovered from the measurement by `C32_history_binding`, whose collision is between messages that were really hashed |
| C85 | Run/PropErr, Run/VError | false of the code, which stops for every SError the architecture can report (finding 49); the rest proved for the syndrome the code expects: the exit itself, and by induction on the run loop that a pending error outlives a run only if it is new or the realm did not run; HCR_EL2.VSE is added to the loop in Run/VError, where a masked SError is lost (finding 23) |
| C86 | Run/PropFeat | the answer of PSCI_FEATURES compared with the dispatcher on the identifier it is about, for any two states; false of PSCI_VERSION (`C86_version_denied`) |
## 5. Where the code and the properties disagree

Each entry names the theorem that exhibits it; entries without a theorem were found while reading
and are not claimed.

1. **REC_CREATE unlocks auxiliary granules twice** when a later auxiliary granule cannot be locked
   (rec.c:289-292: the granules were already unlocked at 296).  `C07_rec_create_asserts`,
   `C40_rec_create_unlocks_unheld`, `C40_extra_unlock_breaks_exclusion`.
2. **TLB invalidation after RTT_FOLD/RTT_DESTROY above level 3** covers one page or 2 MB only, although
   entries of a larger range may be cached.  `C39_fold_gap`, `C39_destroy_gap`.
3. **REALM_DESTROY releases the VMID without invalidation**, relying on earlier invalidations that do not
   cover everything (previous item, and invalid root entries).  `C39_realm_gap`, `C39_not_coherent`.
4. **`s2tt_skip_non_live_entries` scans 512 entries at level -1**, whose table has 16.
   `C17_level_minus_one`.  The same bound is used in `rtt_set_ripas_range`.
5. **PSCI calls with bits 63:32 of X0 set** are dispatched on the low half but completed on all 64 bits:
   PSCI_COMPLETE asserts.  `C07_psci_complete_asserts`, `C31_upper_bits`.
6. **PSCI_COMPLETE(DENIED) for a target that is on** returns an error but has completed the request.
   `C06_denied_has_effect`.
7. **`emulate_stage2_data_abort` asserts at level -1.**  `C30_level_minus_one`.
8. **A host call whose page is EMPTY when the host answers** completes without result.  `C30_lost_answer`.
9. **REC_ENTER errors with effects**: the GIC state is written before later checks fail
   (`C26_gic_written_on_error`); the exit structure may be unwritable after the REC ran
   (`C26_ran_but_error`).
10. **The RSI logger's buffer is too small for one call name.**  `C45_interface_report`.
11. **The boot manifest accepts a DRAM bank that wraps past 2^64.**  `C44_wrapping_bank_accepted`.
12. **The allocator's optional check after a free is inverted.**  `C38_verify_free_inverted`.
13. **The stage 1 builder accepts aliased physical ranges** and sizes that are no power of two.
    `C46_physical_overlap_accepted`, `C46_size_not_power_of_two`.
14. **RSI_IPA_STATE_SET truncates the RIPAS argument to 32 bits.**  `C29_state_truncated`.
15. **RTT_MAP_UNPROTECTED / RTT_UNMAP_UNPROTECTED assert** for levels the walk cannot end at.
    `C07_map_unprotected_asserts`, `C07_unmap_unprotected_asserts`.
16. **List register bits 45-47 and 56-59 are not checked.**  `C37_other_reserved_bits_pass`.
17. **ICC_ASGI1R_EL1 writes and ICC_PMR_EL1 accesses assert.**  `C49_asgi1r_asserts`, `C49_pmr_asserts`.
18. **A data abort on a write without valid syndrome reveals the low byte of X0.**
    `C28_write_without_syndrome`.
19. **An aborted host call reveals address bits 11:8.**  `C28_host_call_page_offset`.
20. **A PSCI call with the SVE hint bit is answered NOT_SUPPORTED.**  `C48_psci_hint`.
21. **snprintf with a format that ends in `%` reads past its end.**  `C56_dangling_percent`.
22. **A realm with a PMU can disturb a host event counter beyond its own.**  If the realm leaves PMSELR_EL0 selecting a
    counter that is not its own, `pmu_restore_state` writes PMXEVCNTR_EL0 and PMXEVTYPER_EL0 of that counter with old
    values at every later entry (`C62_counter_taken`).  (An earlier version of this list also said that a new REC's
    PMCR_EL0.P clears the host's counters.  It would, but finding 46 keeps P from ever being set.)
23. **A virtual SError that is pending when the REC exits to the host is lost**: HCR_EL2.VSE is not saved and the request
    was withdrawn at the entry (`C62_serror_lost`; for a whole run, with the realm masking SErrors, `C85_lost`).  KVM, for
    comparison, saves the bit when a guest stops.  As long as finding 49 stands no SError gets that far.
24. (Reading only) Registers that are neither switched nor trapped by EL2 controls set here: the OS lock and double lock
    (MDCR_EL2.TDOSA clear), TRFCR_EL1 (TTRF clear), the RAS error records (HCR_EL2.TERR clear), LORegions (TLOR
    clear), implementation defined registers (TIDCP clear); whether a realm reaches them depends on EL3.  They are not in
    the models, and what C62 and C83 say of all registers does not hold of them.  VDISR_EL2 is finding 50.
25. (Reading only) SEA injection leaves a stale HPFAR; PSCI_CPU_ON ignores reserved MPIDR bits; the read
    path of `complete_sysreg_emulation` is unreachable; `realm_ipa_to_pa` unlocks the last table before
    unmapping it; `write_response_to_rec` touches another REC's attestation data under the REC lock only;
    `ns_buffer_read`/`write` do not check the mapping for NULL (it cannot be, C47); "%d" of INT_MIN
    negates a signed minimum; `calc_vector_entry` does not apply the
    SCTLR2_EL1.EASE offset to aborts from AArch32 EL0; ISV/SAS/SRT of ESR_EL2 are copied to ESR_EL1, where the architecture has ISV=0;
    on CPUs with FEAT_SME TPIDR2_EL0 is neither switched nor trapped, and FPMR (FEAT_FPMR) is not handled.
26. **REALM_CREATE does not check that the root tables are aligned to their total size** (the RMM specification's
    `rtt_align` condition), and without LPA2 not that their address fits in 48 bits. The MMU rounds the base address
    of VTTBR_EL2 down, or gets it truncated, and walks as root table a granule that is none of the realm's root tables,
    for example memory another realm can write (`C51_root_of_another`, `C51_truncated`, `C51_misaligned`).
    `C51_first_iff_partial` says that the two missing checks are exactly what is needed. C01-C04 and the other properties
    about `leaf` and `translate` describe the hardware under these two conditions (`C51_walk_partial`).
27. **DATA_CREATE looks at its source granule before it takes any lock** (rtt.c:1020-1024). If the source is delegated
    meanwhile, the command still fails without effect, but with the code of a later check (`C65_data_create_code`). Harmless.
28. **With signing by EL3, a response pulled by another CPU is written to the wrong REC's memory.**
    `ctx->state.sig_buffer` is an address in the mapping of the auxiliary granules of the REC that asked
    (SLOT_REC_AUX0 on its CPU). `write_response_to_rec` maps the target at other addresses (the comment there says that
    pointers must be recalculated) but attestation_el3_token_sign.c:185 uses the old pointer, which on this CPU leads to
    the running REC's token buffer. The target is marked signed without a signature (`C66_wrong_buffer`). This rests on the
    assumption that t_cose, whose source is not in the tree, signs into the output buffer it was given.
29. **With signing by EL3, RSI_ATTESTATION_TOKEN_INIT races with a response written by another CPU.**
    `attest_token_ctx_init` clears the whole context with its spinlock, without holding that lock. A realm with two
    RECs can so make RMM copy to a null pointer (`C66_race_crash`), fail an assertion (`C66_race_assert`), or
    get a token that counts as signed without its signature (`C66_race_stale`).
30. **With signing by EL3, an error for a response leaks the lock of the shared buffer**
    (attestation_el3_token_sign.c:118-122): every later user of the buffer spins for ever (`C67_lock_leak`).
31. **The compile-time check of the stack size is two pages too lax.** xlat_high_va.c:50-51 leaves out the exception stack
    and the second gap. With RMM_NUM_PAGES_PER_STACK of 402 or 403 the build passes but the exception stack lies below
    the region the table maps (`C68_layout_assert_gap`).
32. **Answers of EL3 at boot are not fully checked.** The length check of the platform token (attestation_key.c:304) wraps,
    and a piece longer than the shared buffer passes (`C69_token_wrap`). `(int)smc_res.x[0]` cuts the error code: an error
    with a zero low half counts as success with the lengths of the call before (`C69_token_code`), and for the key with a
    length that was never initialised, so that the key may stay in the shared buffer (`C69_key_code`). EL3 is trusted, so
    this matters only if EL3 has a bug.
33. **The accessors with acquire and release have no compiler barrier.** `__sca_read16_acquire`, `__sca_read64_acquire` and
    `__sca_write64_release` (memory.h:28-39, 61-75, 97-111) lack the "memory" clobber that atomics.h, spinlock.h and
    granule_lock.h have. The instruction orders memory for the CPU, but the compiler may move ordinary accesses across
    it. For the reference count that is the case `countAcq := false` of `C70_needed`: in psci.c:340 and 362 the read of
    `runnable` may be moved up, against the comment there (lines 323-332). Found by reading; the cases in the tree look harmless.
34. **`xlat_get_tte_ptr` cuts the index to 32 bits.** Its comment (xlat_tables_utils.c:491) promises NULL for an address outside
    the table, but the cast to `unsigned int` (line 514) comes before the range check: 2^44 bytes above a level 3 table
    its entries come again (`C46_tte_wrap`). Not reached in the tree, as the only caller uses the table at the top of the
    address space (`C47_llt`). `C46_tte_range` proves the comment for smaller distances.
35. **The default buffer sizes do not fit together.** lib/attestation/CMakeLists.txt:28-31 requires only that the buffer for the CCA
    token (RMM_CCA_TOKEN_BUFFER, default 1 page) is not smaller than the largest platform token (ATTEST_PLAT_TOKEN_SIZE, default
    0x1000), but the buffer has to hold the platform token and the Realm token with their heads (`C71_cca` gives the exact
    condition). A platform token of 4096 bytes is accepted at boot, and afterwards RSI_ATTESTATION_TOKEN_CONTINUE answers
    RSI_ERROR_INPUT for ever (`C71_default_size`); with a Realm token of 772 bytes (SHA-512) this starts at 3309 bytes.
36. **Without a console the page at address 0 is mapped.** If the boot manifest of an Arm platform lists no console, `plat_setup`
    goes on with the console region as initialised, base 0 (arm_setup.c:17-20, 60-63, 78-103): the page at address 0 becomes
    writable device memory, and an access through a null pointer does not fault (`C72_null_mapped`). With a console it does
    (`C72_null_faults`).
37. **A physical stack address need not fault.** head.S:56-62 says that after the MMU is on, using the physical address of a stack
    causes an exception. The linker puts the stacks right behind the data (linker.lds:80-92), and the shared buffer is mapped at
    the second page behind the data (plat_common_init.c:66-70), so the address of the second page of the stack area is that of the buffer
    shared with EL3 (`C72_stack_alias`). Only the comment is wrong, as nothing uses the physical address after that.
38. **The list of consoles has no bound.** rmm_el3_ifc_get_console_list_pa multiplies the number of consoles by 48 in 64 bits and
    has neither the bound on the number nor the check for a null pointer that the list of DRAM banks has
    (rmm_el3_ifc_manifest.c:125-128, 216-231). A list of 2^60 consoles at address 0 is accepted although no word of an element
    has been read, and plat_setup then reads the first one from address 0 (`C76_list_wrap`).
39. **Fast UART clocks give a wrong divisor.** `uart_clk * 4U` is computed in 32 bits (pl011.c:93), so from 2^30 Hz on the
    divisor is wrong, and 0 for 2^30 Hz itself (`C76_uart_wrap`). plat_setup also cuts the 64-bit clock and baud rate of the
    manifest to 32 bits without a check (arm_setup.c:89-90).
40. **The console has no lock.** Two CPUs that print at the same time can both see room for one byte in the FIFO and then both
    write: one character is lost (`C76_lost`). If only one CPU prints at a time, none is (`C76_output_partial`).
41. **A failed attestation_init leaves DIT set** (by reading only). The paths of attestation_utils.c:63-66 and the `goto`s to line 115
    skip `write_dit(0x0)` of line 113, so that Data Independent Timing stays enabled on the boot CPU. Only the speed
    of that CPU is affected.
42. **REC_CREATE ignores the upper half of `num_aux`.** The field of the parameters is an `unsigned long` and is cut to
    `unsigned int` before the checks (rec.c:278), so a host that passes 2^32 + 16 gets a REC with 16 auxiliary granules instead
    of RMI_ERROR_INPUT (`C24_aux_count_wrap`, `C24_aux_count_cut`). Nothing else goes wrong: the REC owns the 16 granules
    named first.
43. **REC_CREATE takes over what the last REC left in MDCR_EL2.** `init_common_sysregs` starts from `read_mdcr_el2()`
    (rec.c:108) and nothing writes the value of `rmm_arch_init` back after a REC has run, so HPMN of a REC without a PMU
    is the number of counters of whatever REC ran on that CPU before (`C80_history_shows`). Its PMU registers trap, so the
    realm does not see it. All other bits are proved to be independent of history.
44. **Creates and destroys can fail because of a command that itself fails or is over** (`C81_spurious_failure`, `C81_late_reference`).
    REALM_CREATE reserves its VMID before it knows whether it has its granules (realm.c:300, 421-426): a second REALM_CREATE with the
    same VMID fails although the first one fails as well, so that no order of the two explains both answers. REC_DESTROY
    drops its reference to the realm after the REC is DELEGATED again (rec.c:426-440): a REALM_DESTROY in between
    still answers RMI_ERROR_REALM. A host can only hurt itself this way: a failing command changes nothing (`C81_serial`), and a
    retry succeeds.
45. **The library's printf departs from the C standard** in seven ways, none of which a format in the RMM runs into except
    the last: `#` overwrites digits of a number that fills its field (`C82_hash_drops_digits`), `-` makes it forget the precision
    (`C82_left_precision`), zeros stop at 32 characters (`C82_zeros_stop`), a negative argument for the precision counts as zero
    (`C82_negative_precision`), `%hhd` is unsigned (`C82_hhd_unsigned`), binary numbers are cut to 32 digits (`C82_binary_cut`), and the
    least `int` or `long` is negated, which is undefined (`C82_least_int`; `%d` of a return code cannot reach it).
46. **A REC of a realm with a PMU never gets PMCR_EL0_INIT_RESET.**  `init_rec_sysregs` asks
    `rec->realm_info.pmu_enabled` (rec.c:27) before `smc_rec_create` sets it (rec.c:357), so it always finds the zero of the
    fresh granule (`C83_no_reset`).  Nothing depends on it: the counters are loaded from a zeroed page anyway
    (`C83_start_partial`), and a set P would have cleared the host's counters.
47. **The host chooses X1 to X7 of a secondary REC, unmeasured.**  REC_CREATE takes `gprs` of a REC that is not runnable
    but does not measure it (rec.c:364-369), and PSCI_CPU_ON replaces X0 and PC only (`C83_on_partial`).  PSCI promises nothing
    about X1 to X7; realm code that starts secondaries must not use them.
48. **The measurement does not say which REC starts.**  A REC that is not runnable is not measured at all and the
    measurement of a runnable one leaves out its MPIDR (rec.c:364-369), so a host can put RECs with a PC and registers of its
    choice before or between the measured ones: two realms with the same log of which one starts on REC 0 and the other on
    REC 1 are `C84_not_measured`.  The RMM specification has it so.  A relying party can conclude what each starting REC
    executes, not its number; realm code must take the number from MPIDR_EL1, and secondaries from CPU_ON.
49. **Every SError taken from a realm stops the RMM.**  `ESR_EL2_SERROR_DFSC_ASYNC` is 1 (arch.h:368), but the fault status
    code of an asynchronous SError is 0b010001; 0 is the uncategorised one and all others are reserved.  So the comparison
    of exit.c:543 fails for every syndrome that the architecture defines and system_abort is called (`C85_stops`): even a corrected
    error, which need not disturb anybody, stops all realms, and the code that reports errors to the host and the realm is
    never reached.  It is correct otherwise (`C85_report_partial`, `C85_once`, `C85_kept`).
50. **What a realm writes to DISR_EL1 the next realm on that CPU reads.**  The switch saves and restores DISR_EL1 at EL2
    (core/run.c:59 and 121), which is the physical register.  With HCR_EL2.AMO, which every realm has (arch.h:184-187), a
    realm's DISR_EL1 is VDISR_EL2 (if the CPU has FEAT_RAS), and nothing in the RMM touches that.  So the register is shared by all RECs
    that run on a CPU: a channel between realms (`C62_disr_shared`), and the one register that a new REC does not find at a fixed value
    (`C83_disr`).  The host does not see it (EL3 switches it).
51. **PSCI_FEATURES denies PSCI_VERSION.**  `handle_psci` serves PSCI_VERSION (psci.c:286-289), but the switch of `psci_features` (psci.c:259-275) does
    not list it, so a realm that asks is told NOT_SUPPORTED (`C86_version_denied`).  Of every other identifier without the SVE
    hint bit the answer is true (`C86_features_partial`).
