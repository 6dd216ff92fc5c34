{"claims": [
 {"property": "C12", "status": "proved", "theorems": ["Verif.Rmm.C12_map", "Verif.Rmm.C12_map_read", "Verif.Rmm.C12_unmap", "Verif.Rmm.C12_map_unmap", "Verif.S2tte.C12_host_descriptor_valid_iff", "Verif.S2tte.C12_host_descriptor_roundtrip"], "note": ""},
 {"property": "C16", "status": "proved", "theorems": ["Verif.Rmm.C16_succeeds_iff", "Verif.Rmm.C16_truthful", "Verif.S2tte.C16_host_view_only_host_bits"], "note": ""},
 {"property": "C17", "status": "partial", "theorems": ["Verif.Rmm.C17_rtt_destroy_partial", "Verif.Rmm.C17_unmap_partial", "Verif.Rmm.C17_data_destroy_partial", "Verif.Rmm.C17_level_minus_one"], "note": "never skips a live entry, at every level; that the address stays within the table is false at level -1 (witness C17_level_minus_one) and proved at all other levels"},
 {"property": "C39", "status": "partial", "theorems": ["Verif.Rmm.C39_step_partial", "Verif.Rmm.C39_coherent_partial", "Verif.Rmm.C39_granules_partial", "Verif.Rmm.C39_fold_range", "Verif.Rmm.C39_destroy_gap", "Verif.Rmm.C39_realm_gap", "Verif.Rmm.C39_fold_gap", "Verif.Rmm.C39_not_coherent"], "note": "the full statement is false of the code for RTT_FOLD and RTT_DESTROY above level 3 and for REALM_DESTROY (witnesses proved); proved for all other commands and executions"},
 {"property": "C18", "status": "proved", "theorems": ["Verif.S2tte.C18_encode_total", "Verif.S2tte.C18_recognised_exactly", "Verif.S2tte.C18_pa_roundtrip", "Verif.S2tte.C18_ripas_roundtrip", "Verif.S2tte.C18_live_iff", "Verif.S2tte.C18_hardware_view", "Verif.S2tte.C18_encode_injective", "Verif.S2tte.C18_ram_attributes", "Verif.S2tte.C18_ns_attributes"], "note": "bit-exact 64-bit descriptors, all levels, with and without LPA2"},
 {"property": "C19", "status": "proved", "theorems": ["Verif.Geometry.C19_index_in_table", "Verif.Geometry.C19_indices_recombine", "Verif.Geometry.C19_indices_injective"], "note": ""},
 {"property": "C20", "status": "proved", "theorems": ["Verif.Geometry.C20_geometry_accepted_iff", "Verif.Geometry.C20_starting_level_initialised"], "note": ""},
 {"property": "C21", "status": "proved", "theorems": ["Verif.Features.C21_params_accepted_iff"], "note": ""},
 {"property": "C50", "status": "proved", "theorems": ["Verif.Features.C50_feature_register"], "note": ""},
 {"property": "C25", "status": "proved", "theorems": ["Verif.Mpidr.C25_valid_iff", "Verif.Mpidr.C25_mpidr_of_index", "Verif.Mpidr.C25_index_injective", "Verif.Mpidr.C25_index_range", "Verif.Mpidr.C25_el1_index"], "note": ""},
 {"property": "C35", "status": "proved", "theorems": ["Verif.Status.C35_roundtrip_struct", "Verif.Status.C35_roundtrip", "Verif.Status.C35_injective", "Verif.Status.C35_success_iff_zero", "Verif.Status.C35_defined_iff"], "note": ""},
 {"property": "C42", "status": "proved", "theorems": ["Verif.LockSet.C42_all_or_nothing", "Verif.LockSet.C42_succeeds", "Verif.LockSet.C42_two"], "note": ""},
 {"property": "C43", "status": "proved", "theorems": ["Verif.Dram.C43_addr_to_idx_and_back", "Verif.Dram.C43_idx_to_addr_and_back", "Verif.Dram.C43_find_granule_iff"], "note": ""},
 {"property": "C44", "status": "partial", "theorems": ["Verif.Dram.C44_validate_iff_partial", "Verif.Dram.C44_wrapping_bank_accepted"], "note": "the validator accepts a bank whose end wraps past 2^64 (witness proved); the characterisation holds for banks that do not wrap"},
 {"property": "C03", "status": "proved", "theorems": ["Verif.Rmm.C03_assigned_is_data", "Verif.Rmm.C03_unique", "Verif.Rmm.C03_exists"], "note": ""},
 {"property": "C04", "status": "proved", "theorems": ["Verif.Rmm.C04_protected_half", "Verif.Rmm.C04_unprotected_half", "Verif.Rmm.C04_total", "Verif.Rmm.C04_translate", "Verif.Rmm.C04_ns_origin"], "note": ""},
 {"property": "C08", "status": "proved", "theorems": ["Verif.Rmm.C08_create", "Verif.Rmm.C08_fold"], "note": ""},
 {"property": "C09", "status": "proved", "theorems": ["Verif.Rmm.C09_effect", "Verif.Rmm.C09_not_assigned", "Verif.Rmm.C09_table_returned", "Verif.Rmm.C09_refused_if_assigned"], "note": ""},
 {"property": "C10", "status": "proved", "theorems": ["Verif.Rmm.C10_data_create_unknown", "Verif.Rmm.C10_data_create", "Verif.Rmm.C10_no_host_data_once_active"], "note": ""},
 {"property": "C11", "status": "proved", "theorems": ["Verif.Rmm.C11_data_destroy"], "note": ""},
 {"property": "C13", "status": "proved", "theorems": ["Verif.Rmm.C13_init_ripas", "Verif.Rmm.C13_not_new"], "note": ""},
 {"property": "C14", "status": "proved", "theorems": ["Verif.Rmm.C14_set_ripas", "Verif.Rmm.C14_request_origin", "Verif.Rmm.C14_progress", "Verif.Rmm.C14_reply"], "note": ""},
 {"property": "C15", "status": "proved", "theorems": ["Verif.Rmm.C15_step", "Verif.Rmm.C15_gone_step", "Verif.Rmm.C15_history", "Verif.Rmm.C15_contents", "Verif.Rmm.C15_gone_faults"], "note": ""},
 {"property": "C01", "status": "proved", "theorems": ["Verif.Rmm.C01_agree", "Verif.Rmm.C01_untracked", "Verif.Rmm.C01_delegate", "Verif.Rmm.C01_undelegate", "Verif.Rmm.C01_moves"], "note": ""},
 {"property": "C02", "status": "proved", "theorems": ["Verif.Rmm.C02_delegated_zero", "Verif.Rmm.C02_handed_back_zero", "Verif.Rmm.C02_fresh_zero"], "note": ""},
 {"property": "C05", "status": "proved", "theorems": ["Verif.Rmm.C05_step", "Verif.Rmm.C05_history"], "note": ""},
 {"property": "C06", "status": "proved", "theorems": ["Verif.Rmm.C06_no_effect", "Verif.Rmm.C06_psci_complete", "Verif.Rmm.C06_psci_answer", "Verif.Rmm.C06_denied_has_effect"], "note": "C06_no_effect covers every command except PSCI_COMPLETE; C06_psci_complete and the witness C06_denied_has_effect describe the one error return that has an effect"},
 {"property": "C07", "status": "partial", "theorems": ["Verif.Rmm.C07_no_assertion_partial", "Verif.Rmm.C07_run_partial", "Verif.Rmm.C07_rec_create_asserts", "Verif.Rmm.C07_psci_complete_asserts", "Verif.Rmm.C07_map_unprotected_asserts", "Verif.Rmm.C07_unmap_unprotected_asserts"], "note": "the full statement is false of the code: four reachable assertion failures are proved; C07_no_assertion_partial shows nothing else can assert"},
 {"property": "C22", "status": "proved", "theorems": ["Verif.Rmm.C22_unique", "Verif.Rmm.C22_reserved_iff", "Verif.Rmm.C22_changes", "Verif.Vmid.C22_reserve", "Verif.Vmid.C22_free", "Verif.Vmid.C22_concurrent", "Verif.Vmid.C22_available"], "note": "command by command in Rmm; the bitmap of vmid.c word by word, with any number of concurrent REALM_CREATE and REALM_DESTROY, in Vmid"},
 {"property": "C23", "status": "proved", "theorems": ["Verif.Rmm.C23_step", "Verif.Rmm.C23_monotone", "Verif.Rmm.C23_activate", "Verif.Rmm.C23_destroy", "Verif.Rmm.C23_destroy_clean", "Verif.Rmm.C23_create", "Verif.Rmm.C23_create_iff"], "note": ""},
 {"property": "C24", "status": "proved", "theorems": ["Verif.Rmm.C24_create", "Verif.Rmm.C24_unique", "Verif.Rmm.C24_index_lt", "Verif.Rmm.C24_refcount", "Verif.Rmm.C24_aux", "Verif.Rmm.C24_aux_count", "Verif.Rmm.C24_identity_stable", "Verif.Rmm.C24_count_monotone", "Verif.Rmm.C24_aux_count_cut", "Verif.Rmm.C24_aux_count_wrap"], "note": "Only the low half of num_aux is looked at (finding 42)"},
 {"property": "C52", "status": "proved", "theorems": ["Verif.Rmm.C52_transitions", "Verif.Rmm.C52_through_delegated"], "note": ""},
 {"property": "C36", "status": "proved", "theorems": ["Verif.Dispatch.C36_dispatch", "Verif.Dispatch.C36_hint", "Verif.Dispatch.C36_one_to_one", "Verif.Dispatch.C36_registers"], "note": ""},
 {"property": "C37", "status": "proved", "theorems": ["Verif.Gic.C37_validate_iff", "Verif.Gic.C37_save", "Verif.Gic.C37_restore", "Verif.Gic.C37_entry", "Verif.Gic.C37_exit", "Verif.Gic.C37_history", "Verif.Gic.C37_unimplemented", "Verif.Gic.C37_features", "Verif.Gic.C37_eight_bits", "Verif.Gic.C37_other_reserved_bits_pass"], "note": "bits 45-47 and 56-59 of a list register are not checked by the code (witness C37_other_reserved_bits_pass)"},
 {"property": "C38", "status": "proved", "theorems": ["Verif.Heap.C38_safe", "Verif.Heap.C38_inside", "Verif.Heap.C38_disjoint", "Verif.Heap.C38_calloc", "Verif.Heap.C38_free", "Verif.Heap.C38_double_free", "Verif.Heap.C38_null_iff", "Verif.Heap.C38_coalesced", "Verif.Heap.C38_all_freed", "Verif.Heap.C38_verify", "Verif.Heap.C38_verify_exact", "Verif.Heap.C38_free_checks", "Verif.Heap.C38_verify_free_inverted"], "note": "the optional check after a free is inverted (C38_verify_free_inverted); it is never enabled at this commit"},
 {"property": "C32", "status": "proved", "theorems": ["Verif.Meas.C32_params_layout", "Verif.Meas.C32_rec_layout", "Verif.Meas.C32_rim_chain", "Verif.Meas.C32_history_binding", "Verif.Meas.C32_same_history", "Verif.Meas.C32_algorithm_binding", "Verif.Rmm.C32_log_of_history", "Verif.Rmm.C32_log_frozen", "Verif.Rmm.C32_realm_measurement"], "note": "for every hash function of the right output length; different histories give different measurements unless the hash collides on two messages that were hashed"},
 {"property": "C33", "status": "proved", "theorems": ["Verif.Meas.C33_extend", "Verif.Meas.C33_rim_unchanged", "Verif.Meas.C33_chain", "Verif.Meas.C33_read", "Verif.Meas.C33_read_refused", "Verif.Rmm.C33_only_extend"], "note": ""},
 {"property": "C26", "status": "proved", "theorems": ["Verif.Run.C26_admission", "Verif.Run.C26_runs_only_if", "Verif.Run.C26_gic_written_on_error", "Verif.Run.C26_ran_but_error"], "note": "two error returns do have effects: C26_gic_written_on_error and C26_ran_but_error"},
 {"property": "C27", "status": "proved", "theorems": ["Verif.Run.C27_emulated", "Verif.Run.C27_refused", "Verif.Run.C27_no_request", "Verif.Run.C27_injected", "Verif.Run.recEnter_inv"], "note": ""},
 {"property": "C28", "status": "partial", "theorems": ["Verif.Run.C28_filtered_partial", "Verif.Run.C28_write_without_syndrome", "Verif.Run.C28_host_call_page_offset"], "note": "false of the code in two places, both proved by witness: a write without valid syndrome reveals the low byte of X0, and an aborted host call reveals address bits 11:8; C28_filtered_partial gives the exact exit contents for every exit"},
 {"property": "C29", "status": "partial", "theorems": ["Verif.Run.C29_request_partial", "Verif.Run.C29_answer", "Verif.Run.C29_kept", "Verif.Run.C29_state_truncated"], "note": "the state argument is truncated to 32 bits before it is checked, so values that are no RIPAS are accepted (C29_state_truncated); everything else is as stated"},
 {"property": "C30", "status": "partial", "theorems": ["Verif.Run.C30_request_partial", "Verif.Run.C30_answer", "Verif.Run.C30_not_yet", "Verif.Run.C30_lost_answer", "Verif.Run.C30_level_minus_one"], "note": "false of the code in two places, both proved: a page that is EMPTY when the host answers makes the call return without result (C30_lost_answer), and a fault at level -1 fails an assertion (C30_level_minus_one)"},
 {"property": "C48", "status": "proved", "theorems": ["Verif.Run.C48_contract", "Verif.Run.C48_unknown", "Verif.Run.C48_psci_hint"], "note": "C48_psci_hint records a deviation: a PSCI call with the SVE hint bit set is answered NOT_SUPPORTED, because the bit is cleared for RSI but not for PSCI."},
 {"property": "C49", "status": "proved", "theorems": ["Verif.Run.C49_id_read", "Verif.Run.C49_id_write", "Verif.Run.C49_razwi", "Verif.Run.C49_exit_only", "Verif.Run.C49_exit", "Verif.Run.C49_asgi1r_asserts", "Verif.Run.C49_pmr_asserts"], "note": "two registers the handlers claim to cover fail an assertion instead: ICC_ASGI1R_EL1, whose writes the architecture traps (C49_asgi1r_asserts), and ICC_PMR_EL1, which is not trapped as RMM configures it (C49_pmr_asserts)"},
 {"property": "C31", "status": "partial", "theorems": ["Verif.Run.C31_started", "Verif.Run.C31_untouched", "Verif.Run.C31_refused", "Verif.Run.C31_cpu_on", "Verif.Run.C31_affinity_info", "Verif.Run.C31_waiting_partial", "Verif.Run.C31_unique", "Verif.Run.C31_asks_on", "Verif.Run.C31_asks_affinity", "Verif.Run.C31_upper_bits"], "note": "For every history of REC_CREATE, REC_DESTROY, REC_ENTER (split, so other commands interleave with a run), PSCI_COMPLETE and RIPAS progress over any number of realms and RECs: a REC that is off starts only by the completion of a CPU_ON request for it by another REC of its realm, with the requested entry point and context, in a reset state; running or runnable targets are untouched; full decision tables for both sides. Partial because the code deviates: C31_upper_bits, a request with bits 63:32 of X0 set can never be completed (assertion in psci_complete_request); C06_denied_has_effect, DENIED for a target that is on returns an error though the caller is answered."},
 {"property": "C34", "status": "proved", "theorems": ["Verif.Run.C34_in_order", "Verif.Run.C34_refused", "Verif.Run.C34_failed_init", "Verif.Run.C34_window", "Verif.Run.C34_run"], "note": "for every sequence of realm calls of a REC; the CBOR encoding and the signature itself are not modelled: the token is any list of bytes, signing any sequence of outcomes; ATTEST_EL3_TOKEN_SIGN off"},
 {"property": "C45", "status": "partial", "theorems": ["Verif.Log.C45_line_partial", "Verif.Log.C45_interface_report"], "note": "the exact line is proved for every call except SMC_RSI_RDEV_GET_INTERFACE_REPORT, for which the claim is false: its name does not fit, so the RMM asserts or overruns the stack buffer"},
 {"property": "C56", "status": "proved", "theorems": ["Verif.Log.C56_snprintf", "Verif.Log.C56_any_format", "Verif.Log.C56_dangling_percent"], "note": "exact text for formats made of literals, %s, %lx, %lu, %x, %u, %d, %08x, %%; confinement to the buffer and termination for every format with flags, width, precision and length; floating point conversions are compiled out and not modelled"},
 {"property": "C46", "status": "proved", "theorems": ["Verif.Xlat.C46_region_mapped", "Verif.Xlat.C46_nothing_else", "Verif.Xlat.C46_regions_disjoint", "Verif.Xlat.C46_writable_never_executable", "Verif.Xlat.C46_outcomes", "Verif.Xlat.C46_transient_reserved", "Verif.Xlat.C46_physical_overlap_accepted", "Verif.Xlat.C46_size_not_power_of_two", "Verif.Xlat.C46_llt", "Verif.Xlat.C46_tte_range", "Verif.Xlat.C46_tte_wrap"], "note": "for every memory map, table array, address and both halves of the address space, with a power-of-two size (all callers); the code also accepts other sizes, for which C46_size_not_power_of_two shows the claim fails, and aliased physical ranges (C46_physical_overlap_accepted); the walk is an independent statement of the architecture's stage 1 walk"},
 {"property": "C40", "status": "partial", "theorems": ["Verif.Conc.C40_exclusive_partial", "Verif.Conc.C40_bit_partial", "Verif.Conc.C40_unlock_by_holder_partial", "Verif.Conc.C40_set_state_partial", "Verif.Conc.C40_refcount", "Verif.Conc.C40_rec_create_unlocks_unheld", "Verif.Conc.C40_extra_unlock_breaks_exclusion"], "note": "mutual exclusion at the level of the 16-bit descriptor word with its atomic instructions, for every number of CPUs and every interleaving of the lock skeletons of all commands, with RMI_REC_CREATE corrected; as written its error path unlocks aux granules it no longer holds (C40_rec_create_unlocks_unheld), and such an unlock lets two CPUs into one critical section (C40_extra_unlock_breaks_exclusion), so the full claim is false of the code"},
 {"property": "C41", "status": "proved", "theorems": ["Verif.Conc.C41_no_deadlock", "Verif.Conc.C41_someone_runs", "Verif.Conc.C41_sets_ascending", "Verif.Conc.C41_rd_and_tables"], "note": "over the same interleavings as C40 (RMI_REC_CREATE corrected); a CPU that waits for a granule found through a table or descriptor is assumed to find a granule of the expected class, which C07 and C09 establish for the pointers kept by the monitor"},
 {"property": "C47", "status": "proved", "theorems": ["Verif.Conc.C47_slots_balanced", "Verif.Conc.C47_ns_slot_free", "Verif.Conc.C47_slot_numbers", "Verif.Slot.C47_slot_view", "Verif.Slot.C47_private", "Verif.Slot.C47_empty_check", "Verif.Slot.C47_no_failure", "Verif.Slot.C47_rest_untouched", "Verif.Slot.C47_start", "Verif.Slot.C47_ns_read", "Verif.Slot.C47_ns_write", "Verif.Xlat.C47_llt"], "note": "slot mapping on every path of every command (RMI_REC_CREATE as written included), and the per-CPU table and TLB with arbitrary caching for any history on any number of CPUs; the copy loops of ns_access.S with a granule protection fault possible at any word; that a Non-secure access to a granule that is not Non-secure faults is the architecture's granule protection check"},
 {"property": "C58", "status": "partial", "theorems": ["Verif.Conc.C58_all_released_partial", "Verif.Conc.C58_state_change_locked_partial", "Verif.Conc.C58_map_protected_partial", "Verif.Conc.C40_rec_create_unlocks_unheld"], "note": "all handlers with RMI_REC_CREATE corrected; as written one error path of RMI_REC_CREATE unlocks auxiliary granules it has already unlocked (C40_rec_create_unlocks_unheld)"},
 {"property": "C54", "status": "proved", "theorems": ["Verif.Run.C54_walk", "Verif.Run.C54_writes_own_memory", "Verif.Run.C54_writes_no_other", "Verif.Run.C54_ipa_state_get", "Verif.Run.C54_config"], "note": "the machine of Verif.Rmm supplies the tables; the realm parameters copied into the REC are taken to be those of the realm descriptor"},
 {"property": "C55", "status": "proved", "theorems": ["Verif.Run.C55_run", "Verif.Run.C55_report", "Verif.Run.C55_told"], "note": "the hardware's timer values after each stretch of realm execution are arbitrary"},
 {"property": "C59", "status": "proved", "theorems": ["Verif.Run.C59_abort", "Verif.Run.C59_undef", "Verif.Run.C59_data", "Verif.Run.C59_fetch", "Verif.Run.C59_external", "Verif.Run.C59_hvc", "Verif.Run.C59_simd", "Verif.Run.C59_sea"], "note": "two differences from the architecture (EASE offset for AArch32 EL0, ISV copied) are noted in DESIGN.md"},
 {"property": "C60", "status": "proved", "theorems": ["Verif.Run.C60_hcr", "Verif.Run.C60_registers", "Verif.Run.C60_continues"], "note": ""},
 {"property": "C61", "status": "proved", "theorems": ["Verif.Simd.C61_total", "Verif.Simd.C61_host", "Verif.Simd.C61_realm", "Verif.Simd.C61_fresh", "Verif.Simd.C61_trap", "Verif.Simd.C61_rmm", "Verif.Simd.C61_area"], "note": ""},
 {"property": "C62", "status": "partial", "theorems": ["Verif.Switch.Asm.C62_enter", "Verif.Switch.Asm.C62_leave", "Verif.Switch.C62_host", "Verif.Switch.C62_host_pmu", "Verif.Switch.C62_host_pmu_off", "Verif.Switch.C62_counters_partial", "Verif.Switch.C62_counter_taken", "Verif.Switch.C62_recOk", "Verif.Switch.C62_loaded", "Verif.Switch.C62_fresh", "Verif.Switch.C62_saved", "Verif.Switch.C62_resume", "Verif.Switch.C62_stay", "Verif.Switch.C62_rmm", "Verif.Switch.C62_serror_lost", "Verif.Switch.C62_disr_shared"], "note": "false in three places: a host event counter beyond the realm's can be overwritten, a pending virtual SError is lost on exit to the host, and DISR_EL1 as a realm sees it is not switched (finding 50); the rest is proved"},
 {"property": "C51", "status": "partial", "theorems": ["Verif.Vtcr.C51_geometry", "Verif.Vtcr.C51_first_iff_partial", "Verif.Vtcr.C51_walk_partial", "Verif.Vtcr.C51_misaligned", "Verif.Vtcr.C51_root_of_another", "Verif.Vtcr.C51_truncated", "Verif.Vtcr.C51_vmid", "Verif.Vtcr.C51_vmid_distinct", "Verif.Vtcr.C51_pmu"], "note": "false for realms whose root tables are not aligned to their total size, or beyond 48 bits without LPA2, which REALM_CREATE does not exclude; proved to hold exactly for the others"},
 {"property": "C64", "status": "proved", "theorems": ["Verif.Desc.C64_step", "Verif.Desc.C64_reach", "Verif.Desc.C64_trace", "Verif.Desc.C64_translate", "Verif.Desc.C64_mmu", "Verif.Desc.C64_mmu_exclusive"], "note": ""},
 {"property": "C65", "status": "proved", "theorems": ["Verif.Atom.C65_linearizable", "Verif.Atom.C65_reach", "Verif.Atom.C65_assert", "Verif.Atom.C65_exclusive", "Verif.Atom.C65_no_deadlock", "Verif.Atom.C65_terminate", "Verif.Atom.C65_data_create_code"], "note": "The table commands are programs of several steps over granule locks, run by any number of CPUs; the other operations are single steps that need their locks free. The part of a command after its walk is one step under the lock of the last table. C65_data_create_code is the witness for the exception in the statement."},
 {"property": "C53", "status": "proved", "theorems": ["Verif.Ni.C53_noninterference", "Verif.Ni.C53_hidden", "Verif.Ni.C53_assert", "Verif.Ni.C53_sameRealm"], "note": "Unwinding proof on the machine of C01 to C17; what the exit record shows of registers (host call, MMIO) is covered by the Run model."},
 {"property": "C63", "status": "proved", "theorems": ["Verif.Trap.C63_not_fatal", "Verif.Trap.C63_progress", "Verif.Trap.C63_bound", "Verif.Trap.C63_read", "Verif.Trap.C63_write", "Verif.Trap.C63_else_fatal", "Verif.Trap.C63_ns_buffer", "Verif.Trap.C63_sites"], "note": "Assembly of the copy functions and of the exception path instruction by instruction; the C function handle_rmm_trap is one step that obeys the procedure call standard."},
 {"property": "C66", "status": "partial", "theorems": ["Verif.Sign.C66_ticket", "Verif.Sign.C66_assert", "Verif.Sign.C66_own_partial", "Verif.Sign.C66_wrong_buffer", "Verif.Sign.C66_race_crash", "Verif.Sign.C66_race_stale", "Verif.Sign.C66_race_assert"], "note": "tickets match requests in all executions; the rest is false when a CPU writes a response to another REC (four witnesses), and proved when none does"},
 {"property": "C67", "status": "partial", "theorems": ["Verif.Sign.C67_progress_partial", "Verif.Sign.C67_lock_leak"], "note": "no deadlock unless EL3 reports an error for a response; after such an error the lock of the shared buffer is never released"},
 {"property": "C57", "status": "proved", "theorems": ["Verif.Mem.C57_memset", "Verif.Mem.C57_memmove", "Verif.Mem.C57_memcpy", "Verif.Mem.C57_memcmp", "Verif.Mem.C57_strnlen", "Verif.Mem.C57_strlcpy", "Verif.Mem.C57_memzero", "Verif.Mem.C57_strlen", "Verif.Mem.C57_strcmp", "Verif.Mem.C57_strncmp", "Verif.Mem.C57_strchr", "Verif.Mem.C57_dcache", "Verif.Mem.C57_dcache_top"], "note": "memmove for lengths up to 2^63; C57_dcache_top shows why the cache functions need the bound in the statement"},
 {"property": "C68", "status": "proved", "theorems": ["Verif.Boot.C68_reloc_exact", "Verif.Boot.C68_reloc_twice", "Verif.Boot.C68_reloc_at_zero", "Verif.Boot.C68_reloc_empty_got", "Verif.Boot.C68_mov_imm_exact", "Verif.Boot.C68_mov_imm_precedence", "Verif.Boot.C68_entry_up", "Verif.Boot.C68_cold_once", "Verif.Boot.C68_stacks_apart", "Verif.Boot.C68_eh_stacks_apart", "Verif.Boot.C68_layout_ok", "Verif.Boot.C68_layout_assert_gap"], "note": "relocation for images with at least one GOT word and one relocation, as RMM has; C68_layout_assert_gap shows that the code's own check of the layout is too lax"},
 {"property": "C69", "status": "proved", "theorems": ["Verif.Boot.C69_token_safe", "Verif.Boot.C69_token_ok", "Verif.Boot.C69_token_complete", "Verif.Boot.C69_token_bound", "Verif.Boot.C69_token_lock", "Verif.Boot.C69_token_wrap", "Verif.Boot.C69_token_code", "Verif.Boot.C69_key_clean", "Verif.Boot.C69_key_once", "Verif.Boot.C69_key_fits", "Verif.Boot.C69_key_el3", "Verif.Boot.C69_key_code", "Verif.Boot.C69_att_ready", "Verif.Boot.C69_seed_random", "Verif.Boot.C69_prng_per_cpu"], "note": "for an EL3 that keeps to the interface; C69_token_wrap, C69_token_code and C69_key_code show what happens otherwise"},
 {"property": "C70", "status": "proved", "theorems": ["Verif.Weak.C70_refines", "Verif.Weak.C70_latest", "Verif.Weak.C70_asserts", "Verif.Weak.C70_needed"], "note": "for one granule with at most one reference at a time (a REC), in a release/acquire model of memory without thin-air reads; the compiler is assumed not to reorder (DESIGN.md, finding 33)"},
 {"property": "C71", "status": "proved", "theorems": ["Verif.Attest.C71_init", "Verif.Attest.C71_sign", "Verif.Attest.C71_cca", "Verif.Attest.C71_order", "Verif.Attest.C71_default_size"], "note": "QCBOR and t_cose are not in the tree and are modelled after their documentation; that the signature is over this string and by the right key is C66 (EL3) and t_cose's business; C71_default_size: with the default build options a platform token of the largest size never fits (finding 35)"},
 {"property": "C72", "status": "proved", "theorems": ["Verif.Xlat.C72_map", "Verif.Xlat.C72_write_xor_execute", "Verif.Xlat.C72_code_only", "Verif.Xlat.C72_ro_protected", "Verif.Xlat.C72_stacks", "Verif.Xlat.C72_rw_guard", "Verif.Xlat.C72_same_everywhere", "Verif.Xlat.C72_refuse", "Verif.Xlat.C72_null_mapped", "Verif.Xlat.C72_null_faults", "Verif.Xlat.C72_stack_alias"], "note": "the tables are those of C46 as stored in memory; mmu_demo shows the hypotheses can be met; findings 36 and 37 are C72_null_mapped and C72_stack_alias"},
 {"property": "C73", "status": "proved", "theorems": ["Verif.Atom.C73_linearizable", "Verif.Atom.C73_reach", "Verif.Atom.C73_maps", "Verif.Atom.C73_contents", "Verif.Atom.C73_no_fail", "Verif.Atom.C73_no_deadlock"], "note": "RSI walks and accesses lock by lock on any number of CPUs, next to all commands; page contents as a whole"},
 {"property": "C74", "status": "proved", "theorems": ["Verif.Spin.C74_refines", "Verif.Spin.C74_mutex", "Verif.Spin.C74_wakeup", "Verif.Spin.C74_progress", "Verif.Spin.C74_needed", "Verif.Wake.C74_granule_mutex", "Verif.Wake.C74_granule_wakeup", "Verif.Wake.C74_granule_progress", "Verif.Wake.C74_granule_needed"], "note": "instruction level, with exclusive monitors and event registers; progress of the spinlock is up to monitors that open for no reason"},
 {"property": "C75", "status": "proved", "theorems": ["Verif.Atom.C75_unlock_checks", "Verif.Atom.C75_counts"], "note": "in the machine of C73, where each command changes a granule's state and count in one step under its lock"},
 {"property": "C76", "status": "partial", "theorems": ["Verif.Console.C76_list_partial", "Verif.Console.C76_list_wrap", "Verif.Console.C76_setup", "Verif.Console.C76_uart_partial", "Verif.Console.C76_uart_wrap", "Verif.Console.C76_output_partial", "Verif.Console.C76_ends", "Verif.Console.C76_lost", "Verif.Console.C76_register"], "note": "false of the code for lists whose size wraps, for clocks of 2^30 Hz and more and for CPUs that print at the same time (witnesses proved); proved otherwise"},
 {"property": "C77", "status": "proved", "theorems": ["Verif.Crash.C77_dump", "Verif.Crash.C77_backtrace"], "note": ""},
 {"property": "C78", "status": "proved", "theorems": ["Verif.HeapCpu.C78_no_assert", "Verif.HeapCpu.C78_exclusive", "Verif.HeapCpu.C78_sequential", "Verif.HeapCpu.C78_frame"], "note": ""},
 {"property": "C79", "status": "proved", "theorems": ["Verif.Pac.C79_never_fails", "Verif.Pac.C79_own_key", "Verif.Pac.C79_signs_with_own_key", "Verif.Pac.C79_forged_fails", "Verif.Pac.C79_key_changes", "Verif.Pac.C79_attribute_needed", "Verif.Pac.C79_isb_needed"], "note": "for all call trees of the handlers that do not write the key registers; EL3 is taken to keep the keys over smc; that C code outside pauth.c does not touch the registers was checked by reading"},
 {"property": "C80", "status": "partial", "theorems": ["Verif.Vtcr.Arch.C80_realm_settings", "Verif.Vtcr.Arch.C80_counters", "Verif.Vtcr.Arch.C80_history_partial", "Verif.Vtcr.Arch.C80_history_shows"], "note": "false of the code for HPMN of a realm without a PMU (finding 43, C80_history_shows); everything else is proved"},
 {"property": "C81", "status": "proved", "theorems": ["Verif.Life.C81_serial", "Verif.Life.C81_quiet", "Verif.Life.C81_success", "Verif.Life.C81_exit", "Verif.Life.C81_command", "Verif.Life.C81_assert", "Verif.Life.C81_exclusive", "Verif.Life.C81_no_deadlock", "Verif.Life.C81_terminate", "Verif.Life.C81_zero", "Verif.Life.C81_pas", "Verif.Life.C81_refs", "Verif.Life.C81_vmid", "Verif.Life.C81_spurious_failure", "Verif.Life.C81_late_reference", "Verif.Life.C81_page_read_before", "Verif.Life.C81_double_unlock"], "note": "Done is what a command does at its point: the atomic command, or a create with the page it read at its start, or a failure without effect that has a reason (Refused) or another CPU inside one of the four commands. The last four theorems are witnesses that each of these clauses is needed of the code (finding 44, and the double unlock of C07)."},
 {"property": "C82", "status": "partial", "theorems": ["Verif.Log.C82_conversion_partial", "Verif.Log.C82_hash_drops_digits", "Verif.Log.C82_left_precision", "Verif.Log.C82_zeros_stop", "Verif.Log.C82_negative_precision", "Verif.Log.C82_hhd_unsigned", "Verif.Log.C82_binary_cut", "Verif.Log.C82_least_int"], "note": "proved for all formats and values outside of the cases in Spec.Conv.Kept, in which the code departs from the standard (finding 45, one theorem each); floating point conversions are compiled out"},
 {"property": "C83", "status": "partial", "theorems": ["Verif.Switch.C83_start_partial", "Verif.Switch.C83_on_partial", "Verif.Switch.C83_sctlr", "Verif.Switch.C83_zero_needed", "Verif.Switch.C83_again", "Verif.Switch.C83_recOk", "Verif.Switch.C83_no_reset", "Verif.Switch.C83_disr"], "note": "false of DISR_EL1, which is as the last REC on that CPU left it (finding 50); the rest is proved; SIMD registers are C61's; X1 to X7 of a secondary are the host's and unmeasured (finding 47)"},
 {"property": "C84", "status": "proved", "theorems": ["Verif.Rmm.C84_start", "Verif.Rmm.C84_start_active", "Verif.Rmm.C84_activate", "Verif.Rmm.C84_recs", "Verif.Rmm.C84_same_log", "Verif.Rmm.C84_same_start", "Verif.Rmm.C84_not_measured"], "note": "the number of a REC and everything about RECs that are not runnable is not measured (C84_not_measured, finding 48)"},
 {"property": "C85", "status": "partial", "theorems": ["Verif.Run.C85_stops", "Verif.Run.C85_report_partial", "Verif.Run.C85_implementation_defined", "Verif.Run.C85_once", "Verif.Run.C85_kept", "Verif.Run.C85_timer_keeps", "Verif.Run.C85_delivery_partial", "Verif.Run.C85_unmasked_partial", "Verif.Run.C85_lost"], "note": "false of the code: it expects fault status code 1 where the architecture has 0b010001, and stops the RMM (C85_stops, finding 49); and an SError that the realm masks until the run ends is lost (C85_lost, finding 23); proved for the code it expects and for realms that do not mask it"},
 {"property": "C86", "status": "partial", "theorems": ["Verif.Run.C86_features_partial", "Verif.Run.C86_version_denied", "Verif.Run.C86_rsi_version"], "note": "false of PSCI_VERSION, which PSCI_FEATURES denies although it is served (finding 51); identifiers with the SVE hint bit are left out; the rest is proved"}
]}
