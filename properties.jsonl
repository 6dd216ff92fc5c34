{"id": "C01", "title": "Delegation state and physical address space agree", "statement": "After any sequence of RMI commands, a tracked granule is in the Realm physical address space (as recorded by EL3) exactly when RMM considers it to be in any state other than NS. In particular GRANULE_DELEGATE / GRANULE_UNDELEGATE that fail (bad address, wrong state, EL3 refusal) leave both views unchanged, and no other command moves a granule between address spaces.", "quantifier": "every granule, every finite history of RMI commands with arbitrary arguments, every pattern of EL3 success/failure responses", "why_tests_cant": "Tests exercise a handful of addresses and never the interplay of arbitrary histories with EL3 refusals.", "anchors": ["runtime/rmi/granule.c: smc_granule_delegate, smc_granule_undelegate", "lib/granule/include/granule.h"]}
{"id": "C02", "title": "Memory handed back to the host is scrubbed", "statement": "At every point of every history, each granule in state DELEGATED contains only zeros, so a successful GRANULE_UNDELEGATE never reveals Realm or RMM data, and every object built from a DELEGATED granule (table, REC, data page created UNKNOWN) starts from zeroed memory.", "quantifier": "every granule and every word in it, every finite history of RMI commands", "why_tests_cant": "A forgotten wipe on one of the many release paths only shows for the histories that take that path; tests do not inspect all memory after all histories.", "anchors": ["runtime/rmi/granule.c", "runtime/rmi/rtt.c: smc_data_destroy, smc_rtt_destroy, smc_rtt_fold", "runtime/rmi/realm.c: smc_realm_destroy", "runtime/rmi/rec.c: smc_rec_destroy", "lib/granule/src/granule.c: granule_memzero_mapped"]}
{"id": "C03", "title": "A data granule backs at most one protected IPA", "statement": "In every reachable state, a physical granule in state DATA is the output address of exactly one protected IPA page of exactly one Realm, and a granule in any other state is the output address of none.", "quantifier": "every pair of Realms, every pair of IPAs, every finite history of RMI commands with arbitrary arguments", "why_tests_cant": "Aliasing needs a particular combination of fold/unfold/create/destroy at several levels; the space of histories is unbounded.", "anchors": ["runtime/rmi/rtt.c", "lib/s2tt/src/s2tt.c"]}
{"id": "C04", "title": "Protected and unprotected halves never mix", "statement": "In every reachable state an IPA in the protected half of a Realm never translates to Non-secure memory, and an IPA in the unprotected half never translates to memory in the Realm address space: every live unprotected mapping is an NS mapping that came from the host by RTT_MAP_UNPROTECTED.", "quantifier": "every Realm, every IPA, every finite history of RMI commands", "why_tests_cant": "Requires quantifying over all table shapes and all IPAs.", "anchors": ["runtime/rmi/rtt.c: map_unmap_ns, data_create", "lib/s2tt/src/s2tt.c: host_ns_s2tte_is_valid"]}
{"id": "C05", "title": "Realms do not interfere", "statement": "An RMI command addressed to one Realm leaves the translation, RIPAS, data contents, measurements, lifecycle state and RECs of every other Realm unchanged.", "quantifier": "every command and arguments, every reachable state, every other Realm", "why_tests_cant": "Non-interference is a statement about all pairs of Realms in all states.", "anchors": ["runtime/rmi/rtt.c", "runtime/rmi/realm.c", "runtime/rmi/rec.c"]}
{"id": "C06", "title": "A failed RMI command has no effect", "statement": "If an RMI command on granules, RTTs, data pages or Realms returns a status other than RMI_SUCCESS, the complete RMM state (granule states, reference counts, memory contents, tables, Realm descriptors, VMIDs) is exactly as before the call. (PSCI_COMPLETE with a DENIED status for an already-running target, REC_ENTER after the entry has been accepted, and commands that report partial progress are treated separately.)", "quantifier": "every command, all argument values, every reachable state, every failure point inside the command", "why_tests_cant": "Each command has up to a dozen exit paths, combined with arbitrary prior states.", "anchors": ["runtime/rmi/granule.c", "runtime/rmi/realm.c", "runtime/rmi/rtt.c", "runtime/rmi/rec.c"]}
{"id": "C07", "title": "No RMI command can trip an internal assertion", "statement": "No sequence of RMI commands issued by the host, with any argument values, makes RMM violate one of its internal assertions (refcount over/underflow, walking into a non-table, releasing a live granule, unmapped slot).", "quantifier": "every finite sequence of RMI commands with arbitrary 64-bit arguments", "why_tests_cant": "An assertion failure is a host-triggered denial of service of the whole machine; absence over all histories cannot be tested.", "anchors": ["lib/granule/include/granule.h: granule_refcount_inc/dec, granule_set_state asserts", "lib/s2tt/src/s2tt.c asserts", "runtime/rmi/*.c asserts"]}
{"id": "C08", "title": "RTT_CREATE and RTT_FOLD do not change what the Realm sees", "statement": "A successful RTT_CREATE or RTT_FOLD leaves, for every IPA of every Realm, the host-visible state (HIPAS), the RIPAS and the output address unchanged (a folded or unfolded unprotected mapping keeps its output address and attributes).", "quantifier": "every Realm, every IPA, all tables contents at all levels, every reachable state", "why_tests_cant": "Table contents range over 512 entries of 64 bits; only a symbolic argument covers all.", "anchors": ["runtime/rmi/rtt.c: smc_rtt_create, smc_rtt_fold", "lib/s2tt/src/s2tt.c: s2tt_init_*, s2tt_maps_*_block, s2tt_is_*_block"]}
{"id": "C09", "title": "RTT_DESTROY affects exactly the addressed range", "statement": "A successful RTT_DESTROY changes only IPAs covered by the destroyed table: protected ones become UNASSIGNED/DESTROYED, unprotected ones become UNASSIGNED_NS; it succeeds only if no protected IPA of the range was backed by data, and the table granule returns to the host as DELEGATED.", "quantifier": "every reachable state, every argument triple, every IPA", "why_tests_cant": "as C08", "anchors": ["runtime/rmi/rtt.c: smc_rtt_destroy"]}
{"id": "C10", "title": "DATA_CREATE and DATA_CREATE_UNKNOWN have exactly the documented effect", "statement": "On success exactly one IPA page changes, from UNASSIGNED to ASSIGNED with the given data granule; DATA_CREATE requires an inactive (NEW) Realm and the page ends with RIPAS RAM and exactly the bytes read from the source page; DATA_CREATE_UNKNOWN keeps the RIPAS and yields zeroed memory. Once the Realm is ACTIVE no command can put host-chosen bytes into a protected page.", "quantifier": "every reachable state, all arguments, every IPA of every Realm", "why_tests_cant": "universal over states and IPAs", "anchors": ["runtime/rmi/rtt.c: data_create, smc_data_create, smc_data_create_unknown"]}
{"id": "C11", "title": "DATA_DESTROY has exactly the documented effect", "statement": "On success exactly one IPA page loses its backing; a page with RIPAS RAM becomes DESTROYED, other RIPAS values are kept; the returned address is the granule that backed the page; the granule becomes DELEGATED and is wiped.", "quantifier": "every reachable state, all arguments, every IPA", "why_tests_cant": "universal over states and IPAs", "anchors": ["runtime/rmi/rtt.c: smc_data_destroy"]}
{"id": "C12", "title": "Unprotected mappings: exact effect and round trip", "statement": "RTT_MAP_UNPROTECTED succeeds only on an unprotected IPA in state UNASSIGNED_NS, at a block-capable level, with a well-formed host descriptor, and afterwards RTT_READ_ENTRY returns exactly the descriptor the host supplied; RTT_UNMAP_UNPROTECTED restores UNASSIGNED_NS; both change only the addressed range.", "quantifier": "all host descriptors (64-bit), levels and addresses, every reachable state", "why_tests_cant": "2^64 descriptors times all states", "anchors": ["runtime/rmi/rtt.c: map_unmap_ns, smc_rtt_read_entry", "lib/s2tt/src/s2tt.c: host_ns_s2tte_is_valid, host_ns_s2tte, s2tte_create_assigned_ns"]}
{"id": "C13", "title": "RTT_INIT_RIPAS only raises EMPTY to RAM, before activation, in the processed range", "statement": "A successful RTT_INIT_RIPAS(base, top) returns out_top with base < out_top <= top; exactly the unassigned pages in [base, out_top) that were EMPTY become RAM, nothing else changes, and every processed sub-range is added to the Realm initial measurement. It fails with no effect unless the Realm is NEW.", "quantifier": "all base/top pairs, every table content, every reachable state", "why_tests_cant": "needs induction over the number of entries processed", "anchors": ["runtime/rmi/rtt.c: smc_rtt_init_ripas"]}
{"id": "C14", "title": "RTT_SET_RIPAS honours the Realm's own request and nothing more", "statement": "RTT_SET_RIPAS changes RIPAS only in [base, out_top) where base is the pending address of a request made by that REC through RSI_IPA_STATE_SET and out_top <= the requested top; the new value is the requested one; a page that is DESTROYED is only changed if the Realm asked for it; the REC's progress pointer moves to out_top.", "quantifier": "every reachable state, all arguments, all interleavings with other commands between partial steps", "why_tests_cant": "the host may stop and resume in arbitrary partial chunks with table changes in between", "anchors": ["runtime/rmi/rtt.c: update_ripas, rtt_set_ripas_range, smc_rtt_set_ripas"]}
{"id": "C15", "title": "The host cannot silently replace Realm memory", "statement": "In every history of an ACTIVE Realm, a protected page with RIPAS RAM that is backed by a data granule either stays backed by the same granule, or becomes DESTROYED, or changes because the Realm itself asked for EMPTY. It never becomes RAM again without a request from the Realm.", "quantifier": "every history of RMI commands, every protected IPA", "why_tests_cant": "integrity property over unbounded histories", "anchors": ["runtime/rmi/rtt.c"]}
{"id": "C16", "title": "RTT_READ_ENTRY tells the truth and leaks nothing else", "statement": "RTT_READ_ENTRY reports the level, state, RIPAS and descriptor that the walk to the given IPA ends at, for every encoding; it returns the table address for a table, only the host-supplied bits for an unprotected mapping, and never a bit of Realm attributes.", "quantifier": "all entries (64-bit), all table shapes", "why_tests_cant": "2^64 entry values", "anchors": ["runtime/rmi/rtt.c: smc_rtt_read_entry"]}
{"id": "C17", "title": "The 'next live entry' address is correct", "statement": "The top address reported by RTT_DESTROY, DATA_DESTROY and RTT_UNMAP_UNPROTECTED is beyond the queried address, lies on an entry boundary, does not skip any live entry of the walked table, and is the largest such address within the table, so a host that iterates from top to top visits every live entry.", "quantifier": "all 512-entry tables, all indices, all levels", "why_tests_cant": "512 entries with arbitrary values", "anchors": ["lib/s2tt/src/s2tt.c: s2tt_skip_non_live_entries"]}
{"id": "C18", "title": "Stage-2 descriptors round-trip and classify uniquely", "statement": "For every supported kind of stage-2 entry, level and aligned physical address (48-bit or 52-bit format), the encoded 64-bit descriptor is recognised by exactly one classification predicate, yields back the same physical address and RIPAS, and the hardware interpretation of the descriptor (valid/invalid, block/table/page, output address, NS) is the intended one.", "quantifier": "all kinds, levels, all physical addresses up to 52 bits, both descriptor formats", "why_tests_cant": "2^40 addresses and both formats; tests sample a few", "anchors": ["lib/s2tt/src/s2tt.c: s2tte_create_*, s2tte_is_*, s2tte_pa, s2tte_to_pa, pa_to_s2tte, s2tte_get_ripas"]}
{"id": "C19", "title": "Table indices reconstruct the address", "statement": "The indices a stage-2 walk uses at each level, together with the page offset, determine the IPA uniquely and recombine to it; each index is within its table (512 entries, 16 for level -1, concatenated tables at the starting level).", "quantifier": "all IPAs below the IPA width, all starting levels and IPA widths accepted at Realm creation", "why_tests_cant": "2^52 addresses times configurations", "anchors": ["lib/s2tt/src/s2tt.c: s2tt_walk_lock_unlock, s2_addr_to_idx, s2_sl_addr_to_idx, table_get_entry"]}
{"id": "C20", "title": "Accepted stage-2 geometry is exactly the architecturally legal one", "statement": "REALM_CREATE accepts (IPA width, starting level, number of root tables) exactly when the starting level can resolve that width with 1..16 concatenated root tables and the number given is the required one; the concatenated root then covers every IPA below 2^width.", "quantifier": "all 8-bit widths, all 64-bit starting levels, all counts, LPA2 on or off", "why_tests_cant": "cross product of parameters with derived arithmetic", "anchors": ["runtime/rmi/realm.c: s2_inconsistent_sl, validate_ipa_bits_and_sl, s2_num_root_rtts, validate_realm_params"]}
{"id": "C21", "title": "Realm parameters outside the advertised features are refused", "statement": "REALM_CREATE refuses parameters that ask for features or sizes beyond those advertised by RMI_FEATURES, a misaligned or overlapping root table range, an unsupported hash algorithm, or a VMID out of range, before any state changes.", "quantifier": "all parameter blocks", "why_tests_cant": "unbounded parameter space", "anchors": ["runtime/rmi/realm.c: validate_realm_params, find_lock_rd_granules", "runtime/rmi/feature.c"]}
{"id": "C22", "title": "VMIDs are never shared by live Realms", "statement": "In every reachable state two different live Realms have different VMIDs, a VMID is reserved exactly while its Realm lives, and a failed REALM_CREATE releases nothing that belongs to another Realm.", "quantifier": "every history of REALM_CREATE / REALM_DESTROY with arbitrary VMIDs, any schedule of concurrent reservations", "why_tests_cant": "sharing appears only after particular create/fail/destroy sequences", "anchors": ["lib/arch/src/vmid.c", "runtime/rmi/realm.c: smc_realm_create, smc_realm_destroy"]}
{"id": "C23", "title": "Realm lifecycle", "statement": "A Realm goes NEW -> ACTIVE by REALM_ACTIVATE (once), may become SYSTEM_OFF only by its own PSCI call, never returns to an earlier state, and REALM_DESTROY succeeds exactly when no REC exists and no root table holds a reference; afterwards its descriptor and root tables are DELEGATED and zero.", "quantifier": "every history of RMI commands and Realm PSCI calls", "why_tests_cant": "state machine over unbounded histories", "anchors": ["runtime/rmi/realm.c: smc_realm_activate, smc_realm_destroy", "runtime/rsi/psci.c"]}
{"id": "C24", "title": "RECs get consecutive, unique identities", "statement": "REC_CREATE succeeds only while the Realm is NEW and only for the next MPIDR in sequence, so in every reachable state the RECs of a Realm have distinct MPIDRs, the reference count of the Realm descriptor equals the number of its RECs, and each REC owns exactly the advertised number of auxiliary granules, disjoint from those of every other REC.", "quantifier": "every history of REC_CREATE/REC_DESTROY, all MPIDR values", "why_tests_cant": "unbounded histories, 64-bit MPIDR encodings", "anchors": ["runtime/rmi/rec.c: smc_rec_create, smc_rec_destroy", "runtime/include/rec.h: mpidr_is_valid, mpidr_to_rec_idx"]}
{"id": "C25", "title": "MPIDR <-> REC index conversion", "statement": "Converting a valid MPIDR to a REC index is injective, its range is contiguous from 0, and converting back yields the MPIDR; an MPIDR with any reserved bit set is refused.", "quantifier": "all 64-bit MPIDR values", "why_tests_cant": "2^64 values", "anchors": ["runtime/include/rec.h: mpidr_is_valid, mpidr_to_rec_idx, rec_idx_to_mpidr"]}
{"id": "C26", "title": "REC_ENTER admission", "statement": "REC_ENTER runs a REC only if it is runnable, not already running on another CPU, its Realm is ACTIVE, no PSCI request is pending, the requested GIC state is valid and every emulation or injection flag given is allowed by the last exit; otherwise it returns the documented error (in the documented priority) and the REC does not run.", "quantifier": "all REC states, Realm states, entry parameter blocks", "why_tests_cant": "cross product of parameters", "anchors": ["runtime/rmi/run.c: smc_rec_enter"]}
{"id": "C27", "title": "MMIO emulation gives the Realm exactly the host's value and only where allowed", "statement": "When the host emulates a read, exactly the destination register of the faulting load is written, with the host value truncated and sign/zero extended to the access size, and the PC advances by 4; this is possible only if the last exit was a data abort on an unprotected IPA with valid syndrome. Otherwise REC_ENTER fails and no register changes.", "quantifier": "all syndromes (ESR), all host values, all register numbers and access sizes", "why_tests_cant": "2^32 syndromes x 2^64 values", "anchors": ["runtime/rmi/run.c: complete_mmio_emulation, complete_sea_insertion", "lib/arch/include/esr.h"]}
{"id": "C28", "title": "Exit information given to the host is filtered", "statement": "On a Realm exit caused by an abort the host learns the fault address and syndrome only for unprotected accesses with emulatable syndromes; for protected aborts only page number and a reduced syndrome; all other exit fields remain zero.", "quantifier": "all syndromes and fault addresses", "why_tests_cant": "2^128 combinations", "anchors": ["runtime/core/exit.c: handle_data_abort, handle_instruction_abort, fixup_aarch32_data_abort, handle_sync_external_abort"]}
{"id": "C29", "title": "RSI_IPA_STATE_SET requests are validated and recorded exactly", "statement": "RSI_IPA_STATE_SET is accepted only for an aligned, non-empty, non-wrapping range inside the protected half with a legal new state; the recorded request equals the arguments; on completion the Realm receives the progress made and the host decision.", "quantifier": "all 64-bit argument triples", "why_tests_cant": "wrap-around corner cases over 2^192 inputs", "anchors": ["runtime/rsi/memory.c: handle_rsi_ipa_state_set, handle_rsi_ipa_state_get", "runtime/rmi/run.c: complete_set_ripas"]}
{"id": "C30", "title": "RSI_HOST_CALL moves exactly the host-call registers", "statement": "The host sees exactly the register block of the Realm's host-call structure and the immediate; on re-entry exactly that block is replaced by the host's values; both only touch a page that is protected RAM inside the Realm, and an access outside is reported as a stage-2 abort or input error.", "quantifier": "all structures, all addresses, all host replies", "why_tests_cant": "unbounded contents", "anchors": ["runtime/rsi/host_call.c"]}
{"id": "C31", "title": "PSCI CPU_ON / AFFINITY_INFO handshake", "statement": "A Realm's CPU_ON can start a target REC only if it exists, is off and the host confirmed with PSCI_COMPLETE naming the right pair of RECs; entry point and context id are exactly those requested; the caller gets INVALID_ADDRESS, INVALID_PARAMETERS or ALREADY_ON at once for a bad entry point, an unknown target or itself, and otherwise SUCCESS, DENIED or ALREADY_ON from the completion; AFFINITY_INFO reports whether the target is on; a target that is already on is never disturbed.", "quantifier": "all register values of the caller, all target states, every order of completion", "why_tests_cant": "two-party handshake with interleavings", "anchors": ["runtime/rsi/psci.c", "runtime/rmi/rec.c: smc_psci_complete, psci_complete_request"]}
{"id": "C32", "title": "Measurements form a hash chain over exactly the configuration history", "statement": "The Realm initial measurement equals the fold of the hash function over the sequence of successful REALM_CREATE, DATA_CREATE (with or without contents), INIT_RIPAS and REC_CREATE (runnable) descriptors, in order; two Realms built with the same sequence have the same measurement, and after activation it never changes. The descriptor encodings are injective, so different histories give different hash inputs.", "quantifier": "every history, all descriptor contents, every hash function", "why_tests_cant": "unbounded histories", "anchors": ["lib/measurement/src", "runtime/rmi/realm.c", "runtime/rmi/rtt.c", "runtime/rmi/rec.c"]}
{"id": "C33", "title": "Extensible measurements", "statement": "RSI_MEASUREMENT_EXTEND updates exactly the chosen REM (index 1..4) with hash(old || data) for sizes up to 64 bytes and never the RIM; READ returns the current value; other indices/sizes are refused without effect.", "quantifier": "all indices, sizes, data", "why_tests_cant": "unbounded inputs", "anchors": ["runtime/rsi/realm_attest.c", "lib/measurement/src"]}
{"id": "C34", "title": "Attestation token retrieval yields the token exactly once, in order", "statement": "Whatever chunk sizes the Realm uses, concatenating the bytes written by successive RSI_ATTEST_TOKEN_CONTINUE calls gives exactly the generated token; each call writes only inside the given page window; calls out of sequence are refused.", "quantifier": "every token length, every sequence of (offset,size) windows", "why_tests_cant": "all partitions of the token", "anchors": ["runtime/rsi/realm_attest.c", "lib/attestation/src/attestation_token.c"]}
{"id": "C35", "title": "Return codes", "statement": "Packing a status and an index in a return code and unpacking gives the same pair for every 8-bit status and index, and different pairs have different codes.", "quantifier": "all status and index values", "why_tests_cant": "small, but the claim is for all", "anchors": ["lib/common/include/status.h"]}
{"id": "C36", "title": "SMC dispatch", "statement": "Every host SMC function identifier either reaches exactly the handler documented for it with the documented number of arguments/results, or returns NOT_SUPPORTED with no other effect; the SVE hint bit does not influence the choice.", "quantifier": "all 32-bit function identifiers", "why_tests_cant": "2^32 identifiers", "anchors": ["runtime/core/handler.c: handle_ns_smc, smc_handlers"]}
{"id": "C37", "title": "Host-provided interrupt state is sanitised", "statement": "A host-supplied set of list registers is accepted only if every non-invalid entry has a permitted interrupt id, no entry claims hardware linkage, the reserved bits of the priority and physical-interrupt fields are zero and no interrupt id appears twice; on entry only host-controllable hypervisor control bits change and on exit only permitted bits are disclosed.", "quantifier": "all list-register contents, all numbers of implemented list registers", "why_tests_cant": "2^1024 contents", "anchors": ["lib/gic/src/gic.c"]}
{"id": "C38", "title": "Crypto heap: allocated blocks never overlap", "statement": "After any sequence of allocations and frees, all live allocations are disjoint, inside the heap buffer, at least as large as requested and aligned; freeing coalesces so that freeing everything restores one maximal free block.", "quantifier": "every sequence of sizes and frees", "why_tests_cant": "unbounded sequences", "anchors": ["lib/allocator/src/memory_alloc.c"]}
{"id": "C39", "title": "Stale translations are always invalidated", "statement": "Whenever an RMI command removes or replaces a live stage-2 mapping, TLB invalidation has been issued for every IPA whose translation changed before the command completes (before the memory can be reused).", "quantifier": "all commands, levels, addresses, prior TLB contents", "why_tests_cant": "TLB contents are nondeterministic hardware state", "anchors": ["lib/s2tt/src/s2tt.c: s2tt_invalidate_*", "runtime/rmi/rtt.c", "runtime/rmi/realm.c"]}
{"id": "C40", "title": "Granule locks give mutual exclusion", "statement": "At any time at most one CPU is inside a critical section of a given granule, for every interleaving of the commands that take and release granule locks.", "quantifier": "all numbers of CPUs, all interleavings, all command mixes", "why_tests_cant": "schedules are unbounded", "anchors": ["lib/granule/include/granule_lock.h", "lib/granule/src/granule.c", "runtime/rmi/rec.c: smc_rec_create"]}
{"id": "C41", "title": "Granule locking cannot deadlock", "statement": "With the documented lock order (parents before children in a table walk; same-class granules in address order), no set of CPUs can wait for each other in a cycle.", "quantifier": "all numbers of CPUs, all schedules, all address choices", "why_tests_cant": "deadlock needs a specific schedule", "anchors": ["lib/granule/include/granule_types.h: locking rules", "lib/granule/src/granule.c: find_lock_granules"]}
{"id": "C42", "title": "Multi-granule locking is all-or-nothing", "statement": "Locking a set of granules by address either returns all of them locked, each in the expected state and assigned to the caller slot that asked for it, or returns with none locked; duplicates are refused; order of arguments does not matter.", "quantifier": "all address lists, all expected states, all granule states", "why_tests_cant": "permutations and failure points", "anchors": ["lib/granule/src/granule.c: sort_granules, find_lock_granules, find_lock_two_granules"]}
{"id": "C43", "title": "Address <-> granule index is a bijection on DRAM", "statement": "For every accepted set of DRAM banks, each granule-aligned address inside a bank maps to a unique index below the total number of granules and back; every other address is refused.", "quantifier": "all bank layouts with any number of banks, all 64-bit addresses", "why_tests_cant": "binary search over arbitrary layouts", "anchors": ["plat/arm/src/arm_granule.c"]}
{"id": "C44", "title": "Boot manifest validation", "statement": "Every DRAM layout accepted from EL3 has aligned, non-empty, ascending, disjoint banks whose sizes add up to the limit and a correct checksum.", "quantifier": "all manifests", "why_tests_cant": "wrap-around corner cases", "anchors": ["lib/rmm_el3_ifc/src/rmm_el3_ifc_manifest.c"]}
{"id": "C45", "title": "RSI logging stays inside its buffer", "statement": "For every SMC a Realm can issue, the log line is built entirely inside the log buffer.", "quantifier": "all function identifiers and register values", "why_tests_cant": "2^32 identifiers x argument widths", "anchors": ["runtime/rsi/logger.c"]}
{"id": "C46", "title": "Stage-1 mapping builder maps exactly the requested regions", "statement": "After initialisation, translating any virtual address through the built tables gives the physical address and attributes of the region that contains it, and nothing outside the regions is mapped.", "quantifier": "all sets of non-overlapping regions, all virtual addresses", "why_tests_cant": "recursive splitting over arbitrary regions", "anchors": ["lib/xlat/src/xlat_tables_core.c", "lib/xlat/src/xlat_contexts.c"]}
{"id": "C47", "title": "Slot buffers are private and balanced", "statement": "A buffer slot maps a granule only on the CPU that mapped it; every RMI command leaves all slots unmapped; reading or writing host memory through a slot only touches the requested window of the requested Non-secure granule and fails cleanly if it is not Non-secure.", "quantifier": "all commands and failure paths", "why_tests_cant": "failure paths are numerous", "anchors": ["lib/slot_buf/src/buffer.c"]}
{"id": "C48", "title": "Realm register contract for SMCs", "statement": "For every RSI/PSCI call that returns to the Realm, only the documented result registers change (X0..X4, and X5..X8 for MEASUREMENT_READ), X4 is preserved when it is not a result, unknown identifiers return NOT_SUPPORTED, and the PC advances by exactly one instruction unless a stage-2 abort is reported.", "quantifier": "all identifiers, all register files", "why_tests_cant": "2^32 identifiers", "anchors": ["runtime/core/exit.c: handle_realm_rsi"]}
{"id": "C49", "title": "System register traps", "statement": "ID registers read by a Realm never advertise a feature masked by RMM and are read-only; unhandled registers read as zero and ignore writes; only permitted interrupt-generation writes exit to the host with just the needed value.", "quantifier": "all syndromes and register values", "why_tests_cant": "2^25 syndromes x 2^64 values", "anchors": ["runtime/core/sysregs.c"]}
{"id": "C50", "title": "Feature register matches what RMM will accept", "statement": "RMI_FEATURES(0) advertises exactly the widths, counters and algorithms that REALM_CREATE accepts; other indices read zero.", "quantifier": "all hardware feature configurations", "why_tests_cant": "configuration space", "anchors": ["runtime/rmi/feature.c"]}
{"id": "C52", "title": "Granule state machine", "statement": "A granule only ever changes type along the documented edges: NS<->DELEGATED by (UN)DELEGATE, DELEGATED<->RD/REC/REC_AUX/DATA/RTT by the command that creates or destroys that kind of object; no command turns one kind of object directly into another.", "quantifier": "all reachable states and all commands", "why_tests_cant": "the pairs of command and state are unbounded", "anchors": ["lib/granule/include/granule.h", "runtime/rmi/*.c"]}
{"id": "C56", "title": "Formatted printing stays inside its buffer", "statement": "snprintf writes the text its format denotes, cut to the room in the buffer, always terminates it when the size is not zero, writes nothing outside of the buffer, and returns the length of the whole text.", "quantifier": "all formats, arguments, buffer positions and sizes", "why_tests_cant": "formats, widths and sizes are unbounded; an overrun shows only for particular combinations", "anchors": ["lib/libc/src/printf.c:146-345", "lib/libc/src/printf.c:685-1023"]}
{"id": "C58", "title": "Locks and references are balanced on every path", "statement": "On every path through every RMI and RSI handler, including every error exit, each granule lock taken is released exactly once, each protecting reference taken is dropped, no lock is released that is not held, granule states change only under the lock, and a granule's contents are mapped only while its lock or a reference is held.", "quantifier": "all control-flow paths of all handlers, with any number of loop iterations", "why_tests_cant": "error exits of nested lock sequences are too many to enumerate by test; a missing unlock shows only as a later hang", "anchors": ["runtime/rmi/", "runtime/rsi/", "lib/granule/include/granule.h", "lib/s2tt/src/s2tt.c"]}
{"id": "C54", "title": "Realm calls reach only the realm's own memory and report it truthfully", "statement": "The address translation RMM performs on behalf of a realm agrees with the realm's stage 2 tables: it gives a page exactly when the page is assigned RAM of that realm, and otherwise the RIPAS and level; every byte a realm call changes lies in such a page, never in a page of another realm; RSI_IPA_STATE_GET succeeds for every legal range, makes progress, and the RIPAS it reports holds for every page of the range it reports.", "quantifier": "all reachable states of the monitor, all realms, all realm calls with all register values", "why_tests_cant": "tables, ranges and call arguments are unbounded", "anchors": ["runtime/rsi/realm_ipa_helper.c:39-172", "runtime/rsi/memory.c:47-73", "runtime/rsi/config.c:14-77", "runtime/rsi/realm_attest.c:37-135"]}
{"id": "C55", "title": "Timer interrupts reach the realm's host consistently", "statement": "RMM enters a realm only when the asserted state of the realm's two EL1 timers is the state the host was last told, with the physical timer interrupts masked at EL2 exactly for asserted timers; when the state has changed RMM exits to the host with an IRQ exit instead, and every exit reports the true control value and the compare value relative to the realm's offset.", "quantifier": "all timer values, all exits, all sequences of entries, runs and exits", "why_tests_cant": "needs timer values that change at chosen points of the loop, over unbounded sequences", "anchors": ["runtime/core/timers.c", "runtime/core/run.c: rec_run_loop"]}
{"id": "C59", "title": "Injected exceptions are the architectural ones", "statement": "When RMM injects an abort or undefined instruction into a realm, the realm continues at the EL1 vector the architecture selects for its state, in EL1h with all DAIF bits masked, with ELR/SPSR/ESR/FAR of EL1 describing the interrupted instruction and the fault, and nothing else changed.", "quantifier": "all states of the realm at the fault, all syndromes, every place where RMM injects", "why_tests_cant": "2^64 values of SCTLR, PSTATE and syndromes", "anchors": ["runtime/core/inject_exp.c", "runtime/core/exit.c"]}
{"id": "C60", "title": "The host decides only what it may decide about a run", "statement": "Of the trap controls of a realm the host can change only the WFI and WFE traps, for a single run, and the registers it passes on entry have no effect unless the realm has a host call pending or the host asked to complete an emulated access. Everything else of the REC is as the realm left it, but for the answer to a RIPAS change and the abort for an access to shared memory.", "quantifier": "all entry structures, all states of the REC", "why_tests_cant": "independence of 2^2000 register files cannot be tested", "anchors": ["runtime/rmi/run.c", "runtime/core/run.c"]}
{"id": "C61", "title": "SIMD registers stay with their owner", "statement": "The vector, predicate and floating point registers, their status registers, SVE and SME state belong to whoever was using them. When the host runs again on a CPU it finds them exactly as it left them, in streaming mode or not; only if it gave the SVE hint may the upper vectors and predicates be lost, and then they are zero. When a REC's registers are loaded again, on any CPU, they are as the REC left them; a new REC starts with zeros. Until they are loaded every use of them by the realm traps, after that SVE works exactly if the realm was created with it, up to its vector length, and SME never. No assertion of the switching code fails and RMM's own instructions never trap; the save areas are large enough for every vector length.", "quantifier": "for all CPUs, RECs, vector lengths, with or without SVE and SME, all sequences of host execution, RMI calls, REC entries and exits, realm execution, traps, RSI calls that use the registers in RMM, REC creation and destruction", "why_tests_cant": "the switching is lazy and depends on flags spread over four files; a leak needs a sequence of traps, hints and RMM's own use of the registers on a CPU with SVE and SME, which no host test has", "anchors": ["lib/arch/src/simd.c:77-283", "lib/arch/src/simd.c:320-392", "lib/arch/include/simd.h:209-272", "lib/arch/src/aarch64/simd_helpers.S", "runtime/core/exit.c:303-460", "runtime/core/run.c:239-353", "runtime/core/handler.c:315-383", "runtime/rmi/rec.c:22-35"]}
{"id": "C62", "title": "A world switch gives each side its own registers back", "statement": "RMM runs a realm on the host's CPU and must move the registers of both. The assembly around the realm's execution loads all general registers, SP_EL0 and nothing else from the REC, stores them back, and returns to its caller with the caller's registers and stack intact. At its first instruction the realm has exactly the REC's registers, keys, PMU, virtual interrupts, translation tables and trap controls, independently of what the CPU held before; at a later entry, on any CPU, it finds what it left but for what RMM changed on purpose. When the host runs again every system register that the switch is in charge of, and its PMU, is as it left it, after any number of rounds and whatever the realm did. While RMM handles an exit it uses its own signing key, exception stack and trap controls.", "quantifier": "for all register contents, PMU and GIC sizes, optional features, RECs, any number of exits, all realm executions within what EL2 controls allow, and every register number", "why_tests_cant": "the functions are assembly and about a hundred register accesses, which a host build replaces by stubs; a forgotten register, a wrong offset or a write with side effects shows only on hardware, and only to the other world", "anchors": ["runtime/core/aarch64/run-asm.S:19-115", "runtime/core/run.c:28-370", "lib/arch/src/pmu.c:31-161", "lib/gic/src/gic.c:232-329", "lib/arch/src/pauth.c:49-85", "runtime/rmi/rec.c:22-35"]}
{"id": "C51", "title": "The hardware walks the root tables that RMM manages", "statement": "VTCR_EL2 and VTTBR_EL2 of a REC make the MMU start the translation of every IPA at exactly the descriptor where RMM keeps the realm's starting-level entry: same level, same IPA size, same base, 48 or 52 bit addresses; the walk then ends where RMM's own view of the address space says. The translations are tagged with the realm's VMID, different from that of every other live realm. A realm without a PMU traps on PMU registers and one with a PMU owns exactly its counters.", "quantifier": "for all reachable states, realms, geometries, physical address widths, IPAs, with or without FEAT_VMID16 and LPA2", "why_tests_cant": "what the MMU makes of the two registers is outside every host test; the realm's isolation rests on a few bits of each for every combination of level, size and base address", "anchors": ["runtime/rmi/rec.c:37-141", "runtime/rmi/realm.c:234-477", "lib/s2tt/src/s2tt.c:308-380", "lib/arch/include/arch.h:660-721", "lib/arch/src/vmid.c:28-50"]}
{"id": "C64", "title": "The stage-2 tables in memory are what the rest of RMM believes they are", "statement": "The commands work on 64-bit descriptors, with masks and shifts that depend on level and address format. Run on these words from boot, every command returns the same registers, fails the same assertions and leaves the same state as one that works on abstract entries (unassigned, assigned, destroyed, table), so all that is proved of abstract tables holds of memory. The MMU, reading the same words by the architecture's rules, takes a protected address only to a DATA granule in the Realm address space, an unprotected one only to Non-secure memory, and never two realms, or two pages of one realm, to the same granule.", "quantifier": "for all sequences of commands, realm and host actions from boot, all descriptors the host supplies, both descriptor formats, all levels, addresses and initial memory contents", "why_tests_cant": "tests look at single descriptors; that no sequence of create, fold, split, map, destroy and RIPAS commands ever leaves a word that RMM and the MMU, or two RMM functions, read differently needs an invariant over all histories", "anchors": ["lib/s2tt/src/s2tt.c:253-380", "lib/s2tt/src/s2tt.c:420-1320", "runtime/rmi/rtt.c:78-1476", "runtime/rmi/realm.c:184-477"]}
{"id": "C65", "title": "Table commands that lock hand over hand behave as if they were atomic", "statement": "The RMI commands that walk stage 2 tables (RTT_CREATE, RTT_FOLD, RTT_DESTROY, RTT_MAP/UNMAP_UNPROTECTED, RTT_READ_ENTRY, DATA_CREATE, DATA_CREATE_UNKNOWN, DATA_DESTROY, RTT_INIT_RIPAS, RTT_SET_RIPAS) take their locks one by one, most of them release the realm descriptor once they hold the root table, and walk holding one table at a time while other CPUs run commands in the same realm. Whatever the interleaving, memory and results are those of running the completed commands one after the other in the order of their completion (only the code of a failing DATA_CREATE may differ); an assertion fails in an interleaving only if it fails in the command run alone; no set of CPUs waits in a circle, and every command ends after a bounded number of own steps.", "quantifier": "all numbers of CPUs, all interleavings of lock acquisitions of table commands with each other and with all other operations, all reachable states, all arguments", "why_tests_cant": "Unit tests run one CPU; an interleaving in which a table is removed between two steps of a walk cannot be scheduled in them, and the number of interleavings is unbounded.", "anchors": ["runtime/rmi/rtt.c:smc_rtt_create", "runtime/rmi/rtt.c:smc_rtt_destroy", "runtime/rmi/rtt.c:data_create", "lib/s2tt/src/s2tt.c:s2tt_walk_lock_unlock", "lib/granule/src/granule.c:find_lock_granules"]}
{"id": "C53", "title": "The secrets of a realm do not reach the host or other realms", "statement": "The host and any set of realms that work together learn nothing about the memory, REC registers, auxiliary granules and extensible measurements of the other realms beyond what these give away on purpose: the fact of an exit, the registers X0 to X3 of a PSCI request forwarded to the host, a RIPAS change request, PSCI_SYSTEM_OFF, stores to unprotected memory. Two executions in which they see the same things happen give them the same answer to every command and end with the same granule states, reference counts, host memory, stage-2 tables, realm descriptors and contents of their own realms, whatever the secrets are in the one and in the other. Secrets do not decide either whether a command fails an assertion.", "quantifier": "for all reachable pairs of states, coalitions of the host with any set of realms, all pairs of executions of any length with the same visible events, any number of hidden operations in between", "why_tests_cant": "a statement about pairs of executions: no single test run can show that an answer or a reused granule would have been the same had the secret been different", "anchors": ["runtime/rmi/rtt.c:1036-1120", "runtime/rmi/rec.c:170-200", "runtime/rmi/rec.c:401-524", "runtime/rmi/realm.c:500-549", "runtime/rmi/run.c:172-336", "runtime/rsi/psci.c:140-429", "lib/granule/src/granule.c:225-266"]}
{"id": "C63", "title": "The host cannot crash RMM by taking a granule away during a copy", "statement": "While RMM copies to or from a granule of the host, the host may change its contents or have it taken out of the Non-secure world between any two instructions. Whatever it does, RMM does not stop with a fatal error; the copy returns to its caller after a bounded number of instructions, with 1 and all the words, or with 0 and a prefix of them; each word of the host is read or written at most once and in order; apart from the destination and the exception stack no memory of RMM changes; X5 to X30 and the stack pointers are what they were. Exceptions of RMM other than a granule protection fault on the two registered instructions are never resumed from. The offsets and sizes of all callers keep the access inside the slot.", "quantifier": "for all sizes, addresses, memory and register contents, placements of the code, and all interleavings of any number of host actions with the instructions of the copy and of the exception path", "why_tests_cant": "a unit test on the development host has no granule protection faults and replaces the assembly; on hardware the instant at which a granule is taken away cannot be chosen", "anchors": ["lib/slot_buf/src/aarch64/ns_access.S:33-79", "lib/slot_buf/src/buffer.c:148-218", "runtime/core/aarch64/vectors.S:25-134", "runtime/core/handler.c:386-510"]}
{"id": "C66", "title": "With signing by EL3, a completed realm token carries the signature of its own contents", "statement": "When EL3 signs attestation tokens (ATTEST_EL3_TOKEN_SIGN), any CPU may pull the response to any REC's request. Whatever the CPUs, realms and host do between any two steps - requests abandoned by a new RSI_ATTESTATION_TOKEN_INIT, RECs destroyed and created again at the same address - a response is accepted only for the request it answers, every completed token carries the signature of its own contents, and no assertion fails and no wild address is written.", "quantifier": "all interleavings of any number of CPUs and RECs, any order and timing of requests, EL3 answers, interrupts and REC creation and destruction", "why_tests_cant": "Needs particular interleavings of three parties (the CPU of the REC, the CPU that pulls the response, EL3); unit tests run on one CPU with a fake EL3 and one address space, where the pointer of another REC happens to be valid.", "anchors": ["lib/attestation/src/attestation_el3_token_sign.c:30-192", "lib/t_cose/src/t_cose_el3_token_sign.c:29-146", "runtime/rsi/realm_attest.c:137-375", "lib/attestation/src/attestation_token.c:127-190", "lib/attestation/src/attestation_token.c:373-400"]}
{"id": "C67", "title": "Signing by EL3 never leaves all CPUs waiting for each other or for a lock nobody holds", "statement": "With ATTEST_EL3_TOKEN_SIGN, the granule locks, the locks of the signing contexts and the lock of the buffer shared with EL3 cannot deadlock, and every lock that is taken is released, whatever EL3 answers.", "quantifier": "all interleavings of any number of CPUs and RECs and all EL3 answers, including errors", "why_tests_cant": "Deadlocks depend on the interleaving; a lock that is not released on an error path shows only when another CPU comes by later.", "anchors": ["lib/attestation/src/attestation_el3_token_sign.c:100-129", "lib/attestation/src/attestation_el3_token_sign.c:30-79", "lib/t_cose/src/t_cose_el3_token_sign.c:47-57", "runtime/rsi/realm_attest.c:210-275", "lib/rmm_el3_ifc/src/rmm_el3_runtime.c:45-71"]}
{"id": "C57", "title": "Memory primitives: fill, copy, compare, strings, scrub and cache maintenance do exactly what their callers assume", "statement": "memset (in assembly) fills exactly the bytes it is asked to, with aligned stores only, and returns; memmove copies correctly for every overlap and memcpy for ranges without a common byte; memcmp is zero exactly for equal ranges and has the sign of the first difference; strnlen and strlcpy touch no byte past the terminator or the given size; granule_memzero_mapped zeroes exactly the 4096 bytes of the granule for every DC ZVA block size; the cache range functions operate on exactly the lines that hold a byte of the range, for ranges that do not reach the last line of the address space.", "quantifier": "all addresses (including ranges across the end of the address space, except for the cache functions), all lengths, all values and memory contents, all block and line sizes; memmove for lengths up to 2^63", "why_tests_cant": "Tests try a few lengths and alignments, and the host build uses the C library and a different granule_memzero_mapped; a missed tail byte would leak secrets of a realm.", "anchors": ["lib/libc/src/aarch64/memset.S:19-63", "lib/libc/src/memcpy.c:9-19", "lib/libc/src/memmove.c:10-34", "lib/libc/src/memcmp.c:9-25", "lib/libc/src/strlcpy.c:29-55", "lib/libc/src/strnlen.c:30-40", "lib/granule/src/granule.c:238-267", "lib/arch/src/aarch64/cache_helpers.S:16-57"]}
{"id": "C68", "title": "From the first instruction to C: relocation, CPU numbers, boot arguments and stacks", "statement": "fixup_gdt_reloc gives every word of the image exactly the value it must have at the load address and changes no other word, and a second run, which happens when EL3 first starts a CPU with a bad number, changes nothing; mov_imm loads exactly its operand. A CPU runs only with a number below MAX_CPUS, on the stack of that number, and only after one CPU has accepted the boot arguments; BSS is cleared at most once and the boot data are never set again. The stacks of different CPUs have no byte in common and lie in the area of the linker script; the slots, the stack and the exception stack of a CPU lie in its high region with an unmapped page between them if the stack has at most 401 pages.", "quantifier": "all images (any number of GOT words and relocations), load addresses and memory contents; all values of a register and an operand; all sequences of starts with all arguments; all numbers of CPUs and stack sizes", "why_tests_cant": "The assembly is not part of the host build at all, so no unit test ever runs it.", "anchors": ["runtime/core/aarch64/helpers.S:33-126", "runtime/core/aarch64/head.S:14-167", "lib/arch/include/aarch64/asm_macros.S:110-135", "lib/rmm_el3_ifc/src/aarch64/rmm_el3_ifc_helpers.S:22-41", "lib/rmm_el3_ifc/src/rmm_el3_ifc.c:43-104", "lib/xlat/src/aarch64/xlat_helper.S:22-53", "lib/xlat/include/xlat_high_va.h:12-35", "lib/xlat/src/xlat_high_va.c:46-51"]}
{"id": "C69", "title": "What attestation takes from EL3 at boot: the key, the platform token and the seeds", "statement": "If EL3 keeps to the interface, the platform token RMM keeps is the concatenation of all pieces EL3 hands over, with busy answers anywhere in between; it is taken exactly if it fits, and no byte is copied out of bounds. The request carries the hash of the attestation key until EL3 first answers and never again. The private key leaves no byte in the shared buffer on any path, is taken once, and is usable exactly if everything succeeded; the lock of the shared buffer is released on every return. Attestation counts as initialised only with all of that and with a generator per CPU, each with a seed of its own.", "quantifier": "all sequences of answers of EL3 of any length, all buffer contents, all results of the crypto library, all numbers of CPUs", "why_tests_cant": "Tests replace EL3 by a stub that always hands over the token in one piece and never is busy.", "anchors": ["lib/attestation/src/attestation_key.c:77-347", "lib/attestation/src/attestation_rnd.c:27-136", "lib/attestation/src/attestation_utils.c:52-118", "lib/rmm_el3_ifc/src/rmm_el3_runtime.c:74-147", "lib/arch/include/aarch64/entropy.h:16-35"]}
{"id": "C70", "title": "The granule lock and the reference count order memory: nobody ever reads stale data", "statement": "On CPUs that reorder memory accesses, the acquire and release instructions of the granule lock and of the reference count suffice: whatever is protected by the lock, or by being the only one to run a REC, is read with the value written last, by whichever CPU; the state read under the lock is the one stored last and granule_set_state stores what it should although it reads the descriptor without ordering; no two CPUs may touch the same datum at a time; the assertions about the descriptor hold. The accesses that are not ordered (taking a reference, changing the state) need not be, and each of the four that are must be.", "quantifier": "all numbers of CPUs and data, all interleavings of any length, all choices of the memory allowed by acquire and release", "why_tests_cant": "Reordering depends on the CPU and on timing and is not there at all in the host build, where the lock is a plain variable.", "anchors": ["lib/granule/include/aarch64/granule_lock.h:11-46", "lib/granule/include/granule.h:46-56", "lib/granule/include/granule.h:119-161", "lib/granule/include/granule.h:229-328", "lib/arch/include/aarch64/memory.h:97-112", "lib/arch/include/aarch64/atomics.h:1-120", "runtime/rmi/run.c:197-333", "runtime/rsi/psci.c:320-365"]}
{"id": "C71", "title": "The attestation token says what is true of the Realm", "statement": "When RSI_ATTESTATION_TOKEN_INIT succeeds, the string to be signed, read by an independent CBOR decoder, is a map of exactly eight claims: the 64 bytes that the Realm passed in X1-X8, the personalisation value, hash algorithm, initial and extensible measurements of this Realm (cut to the size of the algorithm), the attestation public key, the algorithm of its hash and the profile. Signing covers this string and no other, however often it is interrupted; the finished token decodes to header, this string and the signature, and always fits in its 1K buffer. The token handed to the Realm decodes to the platform token and the Realm token, and is made exactly if both fit in the buffer.", "quantifier": "for all register values, realm descriptors, keys of up to 129 bytes, headers of up to 128 bytes, signatures of up to 132 bytes, platform tokens, buffer sizes and earlier states of the context", "why_tests_cant": "Tests compare one token of one configuration; they do not show that no field of another algorithm, slot or length is cut, shifted or mixed up, nor that the largest token fits", "anchors": ["lib/attestation/src/attestation_token.c:30-400", "lib/attestation/src/attestation_defs_priv.h:14-27", "runtime/rsi/realm_attest.c:137-199", "lib/measurement/include/measurement.h:74-90"]}
{"id": "C72", "title": "The RMM runs with the address space it asked for, and code is not writable", "statement": "When a processing element has turned on its MMU, the processor itself, reading MAIR, TCR, TTBR0, TTBR1, HCR and SCTLR of EL2 as the architecture says, translates every 64-bit address exactly as the RMM's regions ask: code, constants, data, the shared buffer and the platform's regions in the lower half, its own stacks in the upper half, with the memory type, shareability and permissions asked for, and faults everywhere else. Nothing writable is executable, only the RMM's code is, and no address gives write access to code, constants or the static tables; there are unmapped pages around both stacks and behind the data. All processing elements share the lower half. Processors that cannot do this are refused.", "quantifier": "for all ID register values, contents of the registers at reset, images, platform regions, table addresses, sizes of the lower half that are powers of two, stack sizes up to 401 pages, addresses, and whether the element starts for the first time or again", "why_tests_cant": "Whether the registers, the tables and the sizes fit together can only be seen on a processor, and on each processor only for its own ID registers; a wrong bit leaves the tests running", "anchors": ["lib/xlat/src/xlat_tables_arch.c:20-234", "lib/xlat/src/aarch64/enable_mmu.S:15-52", "lib/xlat/src/xlat_high_va.c:22-150", "plat/common/src/plat_common_init.c:36-225", "plat/arm/src/arm_setup.c:17-103", "runtime/core/aarch64/head.S:28-157"]}
{"id": "C73", "title": "RSI calls use memory that stays the Realm's while other CPUs run commands", "statement": "A handler of an RSI call finds the physical address of a page of its Realm by a walk that takes and releases table locks hand over hand, and then reads and writes the page while it holds the lock of the last table only. Whatever commands and RSI calls other CPUs run meanwhile, and however long the handler takes: what the walk finds is what the hardware's walk would find at that moment; until the handler unlocks the table the address stays that of the Realm's page, a DATA granule in Realm memory, so that each write of the handler is exactly a store of the REC at that address and each read a load; nobody changes the page meanwhile but other RECs of the same Realm; everything together behaves as if commands, look-ups and accesses happened at once, one after the other; no assertion of the walk fails; and there is no deadlock.", "quantifier": "for all numbers of CPUs, interleavings of the steps of all commands and RSI calls, addresses, table geometries and reachable states", "why_tests_cant": "The interleavings in which another CPU destroys, folds or remaps what a handler is using cannot be forced in a test, and unit tests run one CPU with stubbed locks", "anchors": ["runtime/rsi/realm_ipa_helper.c:40-176", "lib/s2tt/src/s2tt.c:276-379", "runtime/rsi/host_call.c:29-105", "runtime/rsi/config.c:17-79", "runtime/rsi/realm_attest.c:37-136", "runtime/core/exit.c:78-101"]}
{"id": "C74", "title": "Waiting for a lock: exclusion, hand-over of data, no lost wake-up, progress", "statement": "The spinlock excludes: two CPUs never both have it, and on CPUs that reorder memory accesses its holder reads what was written last under it. No wake-up is lost, for the spinlock and for the lock of a granule: a CPU sleeps in WFE only while another one has the lock, and the store that releases the lock wakes up every CPU. While the lock is free a CPU that wants it can go on, and no CPU executes more than six (spinlock) or three (granule) instructions before one of them gets it. The acquire, the release, the SEVL and the exclusive loads are each needed.", "quantifier": "all numbers of CPUs, all interleavings of the instructions, all initial contents of event registers and monitors, all choices of the memory allowed by acquire and release", "why_tests_cant": "Waiting with WFE and exclusive monitors does not exist in the host build; a lost wake-up shows as a rare hang that depends on timing.", "anchors": ["lib/arch/include/aarch64/spinlock.h:14-52", "lib/granule/include/aarch64/granule_lock.h:11-46"]}
{"id": "C75", "title": "Every granule passes the checks made when it is locked and unlocked", "statement": "In every interleaving of commands and RSI calls on any number of CPUs, the descriptor of every granule satisfies what the code asserts when it takes or releases the lock: no references to memory of the host, delegated memory, data or auxiliary granules, at most one to a REC, at most 512 to a table, and a known state. The count never overflows its ten bits, so the field is the number of references.", "quantifier": "all numbers of CPUs, all interleavings of any length, all arguments, all granules", "why_tests_cant": "The checks are there to find accounting errors that only certain histories and interleavings produce; tests see the histories they run.", "anchors": ["lib/granule/include/granule.h:58-118", "lib/granule/include/granule_types.h:79-250"]}
{"id": "C76", "title": "The console is the one the boot manifest names and says what was printed", "statement": "The list of consoles in the boot manifest is accepted exactly if its version is at least 0.3 and its words, including those of every element, add up to 0; the first element is used exactly if it is called pl011 and has a base address, a clock and a baud rate. The UART is then enabled with the divisor that the clock and the baud rate ask for, and is disabled while that is changed. What is printed is sent completely and in order, with a carriage return before each line feed, however slowly the UART sends and whatever CPU prints; printing ends if the UART sends at all. A second console is refused.", "quantifier": "all manifests, memory contents, clocks, baud rates and earlier states of the UART, all FIFO sizes, all numbers of CPUs and all interleavings of their accesses with the UART sending", "why_tests_cant": "The host platform has its own console, so neither the list nor the driver runs in a test; characters are lost only if the FIFO is full at the right moment.", "anchors": ["lib/rmm_el3_ifc/src/rmm_el3_ifc_manifest.c:77-89", "lib/rmm_el3_ifc/src/rmm_el3_ifc_manifest.c:193-239", "plat/arm/src/arm_setup.c:52-103", "drivers/pl011/src/pl011.c:13-114", "lib/console/src/console.c:14-52"]}
{"id": "C77", "title": "What a fatal exception prints is true and printing it causes no second one", "statement": "The register dump holds the registers of the interrupted code, at the offsets of the structure that is printed from, and saving them changes nothing but the top 256 bytes of the exception stack. The backtrace ends whatever the stack looks like, loads only aligned words whose bytes can all be read, and prints exactly the call sites of the leading well-formed frame records, at most 20, saying so when there may be more.", "quantifier": "all register values and stacks, all memory contents, including corrupted and circular lists of frame records, all functions that strip pointer authentication codes", "why_tests_cant": "A backtrace of a corrupted stack cannot be tested: the host build has neither address translation instructions nor the exception entry.", "anchors": ["runtime/core/aarch64/vectors.S:71-103", "runtime/core/handler.c:418-468", "lib/debug/src/backtrace.c:9-137"]}
{"id": "C78", "title": "Each REC has its own crypto heap, whichever CPUs run it and whatever the others do", "statement": "The crypto library allocates from the heap that is assigned to the CPU it runs on. On any number of CPUs that enter, leave and destroy RECs in any order, no assertion about this assignment or in the allocator fails; a CPU uses only the heap of the REC that it runs, no two CPUs use the same heap, and a CPU that runs no REC has none; each heap is at all times in a state that a single client could have brought about, although its REC moves between CPUs; no step changes the heap of another REC, and the heap from boot, which holds the attestation key and the random number generators, does not change any more once boot is over.", "quantifier": "all numbers of CPUs and RECs, all interleavings of any length, all sequences of allocations, frees and writes of the library, all results of boot", "why_tests_cant": "A heap shared by mistake shows only when two CPUs run attestation at the same time; the host build runs one CPU.", "anchors": ["lib/allocator/src/memory_alloc.c:61-84", "lib/allocator/src/memory_alloc.c:257-265", "lib/allocator/src/memory_alloc.c:360-398", "lib/allocator/src/memory_alloc.c:417-460", "lib/attestation/src/attestation_utils.c:45-150", "runtime/core/run.c:258-370", "runtime/rmi/run.c:186-228"]}
{"id": "C79", "title": "RMM's own return addresses are signed and checked with the key of the CPU, and no check ever fails", "statement": "After start-up all C code of RMM, except the few functions that switch the key, runs with pointer authentication on and with the key that this CPU drew since it was started; every return address is signed and checked with that key. No check ever fails by mistake, although realms run with keys of their own on the same registers, register writes take effect late, and CPUs are stopped and started again. A return address on the stack that was replaced by one without the right code stops the CPU at the return. A key changes only on its own CPU while authentication is off there.", "quantifier": "all numbers of CPUs, all interleavings of any length, all call trees and loop counts of the handlers, all keys of realms and values realms write, all points at which register writes take effect before the next isb, all functions that compute the code", "why_tests_cant": "The host build has no pointer authentication; on hardware the wrong key shows only in the execution that returns through a function called in the gap.", "anchors": ["lib/arch/src/pauth.c:14-85", "runtime/core/run.c:290-334", "runtime/core/aarch64/head.S:15-167", "runtime/core/aarch64/entry.S:12-43"]}
{"id": "C80", "title": "The trap settings a realm runs under do not depend on what ran before", "statement": "Whatever CPUs were started and whatever RECs were created, destroyed and entered before, on whatever CPUs, a realm runs with VPIDR_EL2 equal to the MIDR of its CPU, SCTLR2_EL1 enabled exactly if the CPU has it, debug registers trapped, counting at EL2 off, PMU registers trapped exactly if the realm has no PMU, and HPMN equal to its number of counters if it has one; two RECs made alike run under the same settings.", "quantifier": "all histories of any length over any number of CPUs and RECs, all identification registers", "why_tests_cant": "REC_CREATE derives the settings from what the register holds on the CPU at that time, which the previous REC left there; tests create RECs on a fresh CPU.", "anchors": ["runtime/core/init.c:26-61", "runtime/rmi/rec.c:106-141", "runtime/core/run.c:146-179"]}
{"id": "C81", "title": "Realms and RECs created and destroyed on several CPUs take effect at once or not at all", "statement": "REALM_CREATE, REALM_DESTROY, REC_CREATE and REC_DESTROY take locks, VMIDs, granules and references one after the other while other CPUs run any commands. Whatever the interleaving, each of them takes effect at one moment between its start and its return, where it does what the command does when it runs alone (the parameter page of a create being the one read at its start), or it fails and changes nothing; a failure needs a reason of its own or another CPU inside one of the four commands. Outside the commands under way the memory is exactly the one of the commands run one after the other, so that nothing is leaked by failures. At every moment in between, DELEGATED granules hold zeros, granule states agree with the physical address space, VMIDs of realms are distinct, reference counts do not overflow and no two CPUs hold the same lock; no set of CPUs waits in a circle, and every command ends; an assertion fails only if it fails in the command run alone, or in REC_CREATE giving back auxiliary granules.", "quantifier": "all numbers of CPUs, all interleavings of the steps of the four commands with each other, with the steps of the table commands and with all other operations, all arguments, all lengths", "why_tests_cant": "Unit tests run one CPU; what another CPU sees between vmid_reserve and vmid_free, between the auxiliary granules, or between the freed tables of a realm cannot be scheduled in them.", "anchors": ["runtime/rmi/realm.c:222-310", "runtime/rmi/realm.c:323-391", "runtime/rmi/realm.c:393-549", "runtime/rmi/rec.c:170-200", "runtime/rmi/rec.c:241-440", "lib/arch/src/vmid.c:28-68"]}
{"id": "C82", "title": "A message prints its values as the C standard says", "statement": "For every format made of characters, %% and conversions d, i, u, x, X, o, b, c, s, p with any flags, width, precision and length modifier, snprintf writes the text that the C standard gives for the format and its arguments, cut to the room in the buffer.", "quantifier": "all formats of any length, all flags, widths, precisions and length modifiers, given as numbers or as arguments, all argument values, all buffers", "why_tests_cant": "The combinations of flags, width, precision, length and value are unbounded; the library is only tested with a few.", "anchors": ["lib/libc/src/printf.c:215-372", "lib/libc/src/printf.c:685-984"]}
{"id": "C83", "title": "A REC starts in the state its parameters say, on any CPU", "statement": "At the first instruction of a REC the realm finds X0 to X7 and the PC of REC_CREATE's parameters, PSTATE EL1h with all exceptions masked, MMU and caches off, and every other register it can see zero or at a fixed value: all EL1 system registers, timers, pointer authentication keys, virtual interrupt state, event counters, SP_EL0 and X8 to X30. Its MPIDR is that of its index. Nothing of what the CPU held, of the CPU the REC was created on or of earlier users of the granules shows; the host decides only the list registers, its bits of ICH_HCR_EL2 and the traps of WFI and WFE. A REC started by PSCI_CPU_ON has the PC, X0 and byte order of the caller instead. From creation on, through any number of starts, entries and runs, the REC is as the world switch needs it: it never resets an event counter by PMCR_EL0.", "quantifier": "for all parameters, realms, CPU register contents before entry, numbers of counters and list registers, host inputs to the entry, and all later histories of the REC", "why_tests_cant": "REC_CREATE writes a dozen fields and relies on zeroed granules for hundreds of others, and what the realm sees results from REC_CREATE, REC_ENTER and the world switch together; a test of either checks the fields it knows, on a host where registers are stubs", "anchors": ["runtime/rmi/rec.c:24-35", "runtime/rmi/rec.c:106-169", "runtime/rmi/rec.c:340-369", "lib/gic/src/gic.c:123-145", "runtime/rsi/psci.c:94-109", "runtime/rmi/run.c:274-313"]}
{"id": "C84", "title": "Realms with the same initial measurement start the same", "statement": "When a realm is activated, every page of its protected address space is what its initial measurement says, whatever the host did while it built the realm and in whatever order: the contents given to the last DATA_CREATE of the page; or, if there was none, zeroes or not yet present where an RTT_INIT_RIPAS covers it, and empty elsewhere; or destroyed, and then out of the realm's reach. Every REC that can be run has the PC and X0 to X7 of a measured REC_CREATE, all other registers zero and no request pending. Hence two realms on any two platforms whose measurements are equal bytes were given the same parameters and start with the same memory and RECs, but for pages the host asked not to be measured and pages it destroyed, unless two different messages that were hashed for them have the same digest.", "quantifier": "for all pairs of platforms, all histories of host calls from boot to the activation of each realm, all protected addresses and all hash functions", "why_tests_cant": "It relates whole construction histories through a hash: the host can interleave any number of creations, destructions and failed calls, and a test compares the measurements of the few histories it builds", "anchors": ["runtime/rmi/rtt.c:887-1033", "runtime/rmi/rtt.c:1036-1090", "runtime/rmi/rtt.c:1207-1312", "runtime/rmi/rec.c:241-440", "runtime/rmi/realm.c:25-50", "lib/measurement/src/rim.c:10-149"]}
{"id": "C85", "title": "A hardware error in a realm is reported to the host and delivered to the realm once", "statement": "When an SError interrupts a realm, and the CPU reports it as contained, the run ends with exit reason SERROR and the architected part of the syndrome, and the REC is otherwise as it was. If the error is fatal to what was running (unrecoverable or recoverable), it is left pending for the realm with its syndrome until the realm takes it, which it does at most once: it is not lost by entries that are refused or end before the realm runs, nor because the realm masks SErrors for a while. Uncontained errors and implementation-defined syndromes stop the RMM.", "quantifier": "all syndromes, all states of the REC, all later calls and all runs of any length", "why_tests_cant": "Host tests cannot raise an SError, and whether it is delivered once depends on what the host and the timers do in later entries.", "anchors": ["runtime/core/exit.c:528-583", "runtime/core/run.c:220-236", "runtime/core/run.c:284-334", "lib/arch/include/arch.h:365-391"]}
{"id": "C86", "title": "A realm is told the truth about the calls it can make", "statement": "PSCI_FEATURES says that a function is supported exactly if the call of that function is served: after a yes the call is never answered with NOT_SUPPORTED, whatever the state of the realm and whatever its arguments, and after a no it always is. RSI_VERSION accepts exactly the version that is implemented and says which it is.", "quantifier": "for all function identifiers, all states of the realm in which it asks and in which it calls, and all arguments", "why_tests_cant": "the list in psci_features and the dispatch in handle_realm_rsi and handle_psci are three switches written separately; a test compares them for the identifiers it names, and not in every state", "anchors": ["runtime/rsi/psci.c:255-321", "runtime/core/exit.c:384-474", "runtime/rsi/system.c:13-25"]}
