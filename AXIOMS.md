# Axioms of the property theorems

Output of `#print axioms` for every theorem named in MANIFEST.json.

| property | theorem | axioms |
|---|---|---|
| C01 | `Verif.Rmm.C01_agree` | propext, Classical.choice, Quot.sound |
| C01 | `Verif.Rmm.C01_delegate` | propext, Quot.sound |
| C01 | `Verif.Rmm.C01_moves` | propext, Classical.choice, Quot.sound |
| C01 | `Verif.Rmm.C01_undelegate` | propext, Classical.choice, Quot.sound |
| C01 | `Verif.Rmm.C01_untracked` | propext, Classical.choice, Quot.sound |
| C02 | `Verif.Rmm.C02_delegated_zero` | propext, Classical.choice, Quot.sound |
| C02 | `Verif.Rmm.C02_fresh_zero` | propext, Classical.choice, Quot.sound |
| C02 | `Verif.Rmm.C02_handed_back_zero` | propext, Classical.choice, Quot.sound |
| C03 | `Verif.Rmm.C03_assigned_is_data` | propext, Classical.choice, Quot.sound |
| C03 | `Verif.Rmm.C03_exists` | propext, Classical.choice, Quot.sound |
| C03 | `Verif.Rmm.C03_unique` | propext, Classical.choice, Quot.sound |
| C04 | `Verif.Rmm.C04_ns_origin` | propext, Classical.choice, Quot.sound |
| C04 | `Verif.Rmm.C04_protected_half` | propext, Classical.choice, Quot.sound |
| C04 | `Verif.Rmm.C04_total` | propext, Classical.choice, Quot.sound |
| C04 | `Verif.Rmm.C04_translate` | propext, Classical.choice, Quot.sound |
| C04 | `Verif.Rmm.C04_unprotected_half` | propext, Classical.choice, Quot.sound |
| C05 | `Verif.Rmm.C05_history` | propext, Classical.choice, Quot.sound |
| C05 | `Verif.Rmm.C05_step` | propext, Classical.choice, Quot.sound |
| C06 | `Verif.Rmm.C06_denied_has_effect` | propext, Quot.sound |
| C06 | `Verif.Rmm.C06_no_effect` | propext, Classical.choice, Quot.sound |
| C06 | `Verif.Rmm.C06_psci_answer` | propext, Classical.choice, Quot.sound |
| C06 | `Verif.Rmm.C06_psci_complete` | propext, Classical.choice, Quot.sound |
| C07 | `Verif.Rmm.C07_map_unprotected_asserts` | propext, Quot.sound |
| C07 | `Verif.Rmm.C07_no_assertion_partial` | propext, Classical.choice, Quot.sound |
| C07 | `Verif.Rmm.C07_psci_complete_asserts` | propext, Quot.sound |
| C07 | `Verif.Rmm.C07_rec_create_asserts` | propext, Quot.sound |
| C07 | `Verif.Rmm.C07_run_partial` | propext, Classical.choice, Quot.sound |
| C07 | `Verif.Rmm.C07_unmap_unprotected_asserts` | propext, Quot.sound |
| C08 | `Verif.Rmm.C08_create` | propext, Classical.choice, Quot.sound |
| C08 | `Verif.Rmm.C08_fold` | propext, Classical.choice, Quot.sound |
| C09 | `Verif.Rmm.C09_effect` | propext, Classical.choice, Quot.sound |
| C09 | `Verif.Rmm.C09_not_assigned` | propext, Classical.choice, Quot.sound |
| C09 | `Verif.Rmm.C09_refused_if_assigned` | propext, Classical.choice, Quot.sound |
| C09 | `Verif.Rmm.C09_table_returned` | propext, Classical.choice, Quot.sound |
| C10 | `Verif.Rmm.C10_data_create` | propext, Classical.choice, Quot.sound |
| C10 | `Verif.Rmm.C10_data_create_unknown` | propext, Classical.choice, Quot.sound |
| C10 | `Verif.Rmm.C10_no_host_data_once_active` | propext, Classical.choice, Quot.sound |
| C11 | `Verif.Rmm.C11_data_destroy` | propext, Classical.choice, Quot.sound |
| C12 | `Verif.Rmm.C12_map` | propext, Classical.choice, Quot.sound |
| C12 | `Verif.Rmm.C12_map_read` | propext, Classical.choice, Quot.sound |
| C12 | `Verif.Rmm.C12_map_unmap` | propext, Classical.choice, Quot.sound |
| C12 | `Verif.Rmm.C12_unmap` | propext, Classical.choice, Quot.sound |
| C12 | `Verif.S2tte.C12_host_descriptor_roundtrip` | propext, Classical.choice, Quot.sound |
| C12 | `Verif.S2tte.C12_host_descriptor_valid_iff` | propext, Classical.choice, Quot.sound |
| C13 | `Verif.Rmm.C13_init_ripas` | propext, Classical.choice, Quot.sound |
| C13 | `Verif.Rmm.C13_not_new` | propext, Classical.choice, Quot.sound |
| C14 | `Verif.Rmm.C14_progress` | propext, Classical.choice, Quot.sound |
| C14 | `Verif.Rmm.C14_reply` | propext, Classical.choice, Quot.sound |
| C14 | `Verif.Rmm.C14_request_origin` | propext, Classical.choice, Quot.sound |
| C14 | `Verif.Rmm.C14_set_ripas` | propext, Classical.choice, Quot.sound |
| C15 | `Verif.Rmm.C15_contents` | propext, Classical.choice, Quot.sound |
| C15 | `Verif.Rmm.C15_gone_faults` | propext, Classical.choice, Quot.sound |
| C15 | `Verif.Rmm.C15_gone_step` | propext, Classical.choice, Quot.sound |
| C15 | `Verif.Rmm.C15_history` | propext, Classical.choice, Quot.sound |
| C15 | `Verif.Rmm.C15_step` | propext, Classical.choice, Quot.sound |
| C16 | `Verif.Rmm.C16_succeeds_iff` | propext, Classical.choice, Quot.sound |
| C16 | `Verif.Rmm.C16_truthful` | propext, Classical.choice, Quot.sound |
| C16 | `Verif.S2tte.C16_host_view_only_host_bits` | propext, Classical.choice, Quot.sound |
| C17 | `Verif.Rmm.C17_data_destroy_partial` | propext, Classical.choice, Quot.sound |
| C17 | `Verif.Rmm.C17_level_minus_one` | propext, Quot.sound |
| C17 | `Verif.Rmm.C17_rtt_destroy_partial` | propext, Classical.choice, Quot.sound |
| C17 | `Verif.Rmm.C17_unmap_partial` | propext, Classical.choice, Quot.sound |
| C18 | `Verif.S2tte.C18_encode_injective` | propext, Classical.choice, Quot.sound |
| C18 | `Verif.S2tte.C18_encode_total` | propext, Classical.choice, Quot.sound |
| C18 | `Verif.S2tte.C18_hardware_view` | propext, Classical.choice, Quot.sound |
| C18 | `Verif.S2tte.C18_live_iff` | propext, Classical.choice, Quot.sound |
| C18 | `Verif.S2tte.C18_ns_attributes` | propext, Classical.choice, Quot.sound |
| C18 | `Verif.S2tte.C18_pa_roundtrip` | propext, Classical.choice, Quot.sound |
| C18 | `Verif.S2tte.C18_ram_attributes` | propext, Classical.choice, Quot.sound |
| C18 | `Verif.S2tte.C18_recognised_exactly` | propext, Classical.choice, Quot.sound |
| C18 | `Verif.S2tte.C18_ripas_roundtrip` | propext, Classical.choice, Quot.sound |
| C19 | `Verif.Geometry.C19_index_in_table` | propext, Classical.choice, Quot.sound |
| C19 | `Verif.Geometry.C19_indices_injective` | propext, Classical.choice, Quot.sound |
| C19 | `Verif.Geometry.C19_indices_recombine` | propext, Classical.choice, Quot.sound |
| C20 | `Verif.Geometry.C20_geometry_accepted_iff` | propext, Classical.choice, Quot.sound |
| C20 | `Verif.Geometry.C20_starting_level_initialised` | propext, Classical.choice, Quot.sound |
| C21 | `Verif.Features.C21_params_accepted_iff` | propext, Classical.choice, Quot.sound |
| C22 | `Verif.Rmm.C22_changes` | propext, Classical.choice, Quot.sound |
| C22 | `Verif.Rmm.C22_reserved_iff` | propext, Classical.choice, Quot.sound |
| C22 | `Verif.Rmm.C22_unique` | propext, Classical.choice, Quot.sound |
| C22 | `Verif.Vmid.C22_available` | propext, Classical.choice, Quot.sound |
| C22 | `Verif.Vmid.C22_concurrent` | propext, Classical.choice, Quot.sound |
| C22 | `Verif.Vmid.C22_free` | propext, Classical.choice, Quot.sound |
| C22 | `Verif.Vmid.C22_reserve` | propext, Quot.sound |
| C23 | `Verif.Rmm.C23_activate` | propext, Classical.choice, Quot.sound |
| C23 | `Verif.Rmm.C23_create` | propext, Classical.choice, Quot.sound |
| C23 | `Verif.Rmm.C23_create_iff` | propext, Classical.choice, Quot.sound |
| C23 | `Verif.Rmm.C23_destroy` | propext, Classical.choice, Quot.sound |
| C23 | `Verif.Rmm.C23_destroy_clean` | propext, Classical.choice, Quot.sound |
| C23 | `Verif.Rmm.C23_monotone` | propext, Classical.choice, Quot.sound |
| C23 | `Verif.Rmm.C23_step` | propext, Classical.choice, Quot.sound |
| C24 | `Verif.Rmm.C24_aux` | propext, Classical.choice, Quot.sound |
| C24 | `Verif.Rmm.C24_aux_count` | propext, Classical.choice, Quot.sound |
| C24 | `Verif.Rmm.C24_aux_count_cut` | propext, Quot.sound |
| C24 | `Verif.Rmm.C24_aux_count_wrap` | propext, Quot.sound |
| C24 | `Verif.Rmm.C24_count_monotone` | propext, Classical.choice, Quot.sound |
| C24 | `Verif.Rmm.C24_create` | propext, Classical.choice, Quot.sound |
| C24 | `Verif.Rmm.C24_identity_stable` | propext, Classical.choice, Quot.sound |
| C24 | `Verif.Rmm.C24_index_lt` | propext, Classical.choice, Quot.sound |
| C24 | `Verif.Rmm.C24_refcount` | propext, Classical.choice, Quot.sound |
| C24 | `Verif.Rmm.C24_unique` | propext, Classical.choice, Quot.sound |
| C25 | `Verif.Mpidr.C25_el1_index` | propext, Classical.choice, Quot.sound |
| C25 | `Verif.Mpidr.C25_index_injective` | propext, Classical.choice, Quot.sound |
| C25 | `Verif.Mpidr.C25_index_range` | propext, Classical.choice, Quot.sound |
| C25 | `Verif.Mpidr.C25_mpidr_of_index` | propext, Classical.choice, Quot.sound |
| C25 | `Verif.Mpidr.C25_valid_iff` | propext, Classical.choice, Quot.sound |
| C26 | `Verif.Run.C26_admission` | propext, Classical.choice, Quot.sound |
| C26 | `Verif.Run.C26_gic_written_on_error` | propext, Quot.sound |
| C26 | `Verif.Run.C26_ran_but_error` | propext, Quot.sound |
| C26 | `Verif.Run.C26_runs_only_if` | propext, Classical.choice, Quot.sound |
| C27 | `Verif.Run.C27_emulated` | propext, Classical.choice, Quot.sound |
| C27 | `Verif.Run.C27_injected` | propext, Classical.choice, Quot.sound |
| C27 | `Verif.Run.C27_no_request` | propext, Quot.sound |
| C27 | `Verif.Run.C27_refused` | propext, Classical.choice, Quot.sound |
| C27 | `Verif.Run.recEnter_inv` | propext, Classical.choice, Quot.sound |
| C28 | `Verif.Run.C28_filtered_partial` | propext, Classical.choice, Quot.sound |
| C28 | `Verif.Run.C28_host_call_page_offset` | propext, Quot.sound |
| C28 | `Verif.Run.C28_write_without_syndrome` | propext, Quot.sound |
| C29 | `Verif.Run.C29_answer` | propext, Quot.sound |
| C29 | `Verif.Run.C29_kept` | propext, Classical.choice, Quot.sound |
| C29 | `Verif.Run.C29_request_partial` | propext, Classical.choice, Quot.sound |
| C29 | `Verif.Run.C29_state_truncated` | propext, Quot.sound |
| C30 | `Verif.Run.C30_answer` | propext, Classical.choice, Quot.sound |
| C30 | `Verif.Run.C30_level_minus_one` | propext, Quot.sound |
| C30 | `Verif.Run.C30_lost_answer` | propext, Quot.sound |
| C30 | `Verif.Run.C30_not_yet` | propext, Classical.choice, Quot.sound |
| C30 | `Verif.Run.C30_request_partial` | propext, Classical.choice, Quot.sound |
| C31 | `Verif.Run.C31_affinity_info` | propext, Quot.sound |
| C31 | `Verif.Run.C31_asks_affinity` | propext, Quot.sound |
| C31 | `Verif.Run.C31_asks_on` | propext, Classical.choice, Quot.sound |
| C31 | `Verif.Run.C31_cpu_on` | propext, Classical.choice, Quot.sound |
| C31 | `Verif.Run.C31_refused` | propext, Classical.choice, Quot.sound |
| C31 | `Verif.Run.C31_started` | propext, Classical.choice, Quot.sound |
| C31 | `Verif.Run.C31_unique` | propext, Classical.choice, Quot.sound |
| C31 | `Verif.Run.C31_untouched` | propext, Classical.choice, Quot.sound |
| C31 | `Verif.Run.C31_upper_bits` | propext, Quot.sound |
| C31 | `Verif.Run.C31_waiting_partial` | propext, Classical.choice, Quot.sound |
| C32 | `Verif.Meas.C32_algorithm_binding` | propext, Quot.sound |
| C32 | `Verif.Meas.C32_history_binding` | propext, Classical.choice, Quot.sound |
| C32 | `Verif.Meas.C32_params_layout` | propext, Classical.choice, Quot.sound |
| C32 | `Verif.Meas.C32_rec_layout` | propext, Classical.choice, Quot.sound |
| C32 | `Verif.Meas.C32_rim_chain` | propext, Classical.choice, Quot.sound |
| C32 | `Verif.Meas.C32_same_history` | propext, Quot.sound |
| C32 | `Verif.Rmm.C32_log_frozen` | propext, Classical.choice, Quot.sound |
| C32 | `Verif.Rmm.C32_log_of_history` | propext, Classical.choice, Quot.sound |
| C32 | `Verif.Rmm.C32_realm_measurement` | propext, Classical.choice, Quot.sound |
| C33 | `Verif.Meas.C33_chain` | propext, Classical.choice, Quot.sound |
| C33 | `Verif.Meas.C33_extend` | propext, Classical.choice, Quot.sound |
| C33 | `Verif.Meas.C33_read` | propext, Classical.choice, Quot.sound |
| C33 | `Verif.Meas.C33_read_refused` | propext |
| C33 | `Verif.Meas.C33_rim_unchanged` | propext |
| C33 | `Verif.Rmm.C33_only_extend` | propext, Classical.choice, Quot.sound |
| C34 | `Verif.Run.C34_failed_init` | propext, Classical.choice, Quot.sound |
| C34 | `Verif.Run.C34_in_order` | propext, Classical.choice, Quot.sound |
| C34 | `Verif.Run.C34_refused` | propext, Classical.choice, Quot.sound |
| C34 | `Verif.Run.C34_run` | propext, Quot.sound |
| C34 | `Verif.Run.C34_window` | propext, Classical.choice, Quot.sound |
| C35 | `Verif.Status.C35_defined_iff` | propext, Quot.sound |
| C35 | `Verif.Status.C35_injective` | propext, Classical.choice, Quot.sound |
| C35 | `Verif.Status.C35_roundtrip` | propext, Classical.choice, Quot.sound |
| C35 | `Verif.Status.C35_roundtrip_struct` | propext, Classical.choice, Quot.sound |
| C35 | `Verif.Status.C35_success_iff_zero` | propext, Classical.choice, Quot.sound |
| C36 | `Verif.Dispatch.C36_dispatch` | propext, Classical.choice, Quot.sound |
| C36 | `Verif.Dispatch.C36_hint` | propext, Classical.choice, Quot.sound |
| C36 | `Verif.Dispatch.C36_one_to_one` | propext, Quot.sound |
| C36 | `Verif.Dispatch.C36_registers` | propext, Classical.choice, Quot.sound |
| C37 | `Verif.Gic.C37_eight_bits` | propext, Classical.choice, Quot.sound |
| C37 | `Verif.Gic.C37_entry` | propext, Classical.choice, Quot.sound |
| C37 | `Verif.Gic.C37_exit` | propext, Quot.sound |
| C37 | `Verif.Gic.C37_features` | propext, Classical.choice, Quot.sound |
| C37 | `Verif.Gic.C37_history` | propext, Classical.choice, Quot.sound |
| C37 | `Verif.Gic.C37_other_reserved_bits_pass` | propext, Quot.sound |
| C37 | `Verif.Gic.C37_restore` | propext, Quot.sound |
| C37 | `Verif.Gic.C37_save` | propext, Quot.sound |
| C37 | `Verif.Gic.C37_unimplemented` | propext, Quot.sound |
| C37 | `Verif.Gic.C37_validate_iff` | propext, Classical.choice, Quot.sound |
| C38 | `Verif.Heap.C38_all_freed` | propext, Classical.choice, Quot.sound |
| C38 | `Verif.Heap.C38_calloc` | propext, Classical.choice, Quot.sound |
| C38 | `Verif.Heap.C38_coalesced` | propext, Classical.choice, Quot.sound |
| C38 | `Verif.Heap.C38_disjoint` | propext, Classical.choice, Quot.sound |
| C38 | `Verif.Heap.C38_double_free` | propext, Classical.choice, Quot.sound |
| C38 | `Verif.Heap.C38_free` | propext, Classical.choice, Quot.sound |
| C38 | `Verif.Heap.C38_free_checks` | propext, Quot.sound |
| C38 | `Verif.Heap.C38_inside` | propext, Classical.choice, Quot.sound |
| C38 | `Verif.Heap.C38_null_iff` | propext, Classical.choice, Quot.sound |
| C38 | `Verif.Heap.C38_safe` | propext, Classical.choice, Quot.sound |
| C38 | `Verif.Heap.C38_verify` | propext, Classical.choice, Quot.sound |
| C38 | `Verif.Heap.C38_verify_exact` | propext, Quot.sound |
| C38 | `Verif.Heap.C38_verify_free_inverted` | propext, Classical.choice, Quot.sound |
| C39 | `Verif.Rmm.C39_coherent_partial` | propext, Classical.choice, Quot.sound |
| C39 | `Verif.Rmm.C39_destroy_gap` | propext, Quot.sound |
| C39 | `Verif.Rmm.C39_fold_gap` | propext, Quot.sound |
| C39 | `Verif.Rmm.C39_fold_range` | propext, Classical.choice, Quot.sound |
| C39 | `Verif.Rmm.C39_granules_partial` | propext, Classical.choice, Quot.sound |
| C39 | `Verif.Rmm.C39_not_coherent` | propext, Classical.choice, Quot.sound |
| C39 | `Verif.Rmm.C39_realm_gap` | propext, Quot.sound |
| C39 | `Verif.Rmm.C39_step_partial` | propext, Classical.choice, Quot.sound |
| C40 | `Verif.Conc.C40_bit_partial` | propext, Classical.choice, Quot.sound |
| C40 | `Verif.Conc.C40_exclusive_partial` | propext, Classical.choice, Quot.sound |
| C40 | `Verif.Conc.C40_extra_unlock_breaks_exclusion` | propext, Quot.sound |
| C40 | `Verif.Conc.C40_rec_create_unlocks_unheld` | propext |
| C40 | `Verif.Conc.C40_refcount` | propext, Classical.choice, Quot.sound |
| C40 | `Verif.Conc.C40_set_state_partial` | propext, Classical.choice, Quot.sound |
| C40 | `Verif.Conc.C40_unlock_by_holder_partial` | propext, Classical.choice, Quot.sound |
| C41 | `Verif.Conc.C41_no_deadlock` | propext, Classical.choice, Quot.sound |
| C41 | `Verif.Conc.C41_rd_and_tables` | propext, Classical.choice, Quot.sound |
| C41 | `Verif.Conc.C41_sets_ascending` | propext, Classical.choice, Quot.sound |
| C41 | `Verif.Conc.C41_someone_runs` | propext, Classical.choice, Quot.sound |
| C42 | `Verif.LockSet.C42_all_or_nothing` | propext, Classical.choice, Quot.sound |
| C42 | `Verif.LockSet.C42_succeeds` | propext, Classical.choice, Quot.sound |
| C42 | `Verif.LockSet.C42_two` | propext, Classical.choice, Quot.sound |
| C43 | `Verif.Dram.C43_addr_to_idx_and_back` | propext, Classical.choice, Quot.sound |
| C43 | `Verif.Dram.C43_find_granule_iff` | propext, Classical.choice, Quot.sound |
| C43 | `Verif.Dram.C43_idx_to_addr_and_back` | propext, Classical.choice, Quot.sound |
| C44 | `Verif.Dram.C44_validate_iff_partial` | propext, Classical.choice, Quot.sound |
| C44 | `Verif.Dram.C44_wrapping_bank_accepted` | propext |
| C45 | `Verif.Log.C45_interface_report` | propext, Classical.choice, Quot.sound |
| C45 | `Verif.Log.C45_line_partial` | propext, Classical.choice, Quot.sound |
| C46 | `Verif.Xlat.C46_llt` | propext, Classical.choice, Quot.sound |
| C46 | `Verif.Xlat.C46_nothing_else` | propext, Classical.choice, Quot.sound |
| C46 | `Verif.Xlat.C46_outcomes` | propext, Classical.choice, Quot.sound |
| C46 | `Verif.Xlat.C46_physical_overlap_accepted` | propext, Quot.sound |
| C46 | `Verif.Xlat.C46_region_mapped` | propext, Classical.choice, Quot.sound |
| C46 | `Verif.Xlat.C46_regions_disjoint` | propext, Classical.choice, Quot.sound |
| C46 | `Verif.Xlat.C46_size_not_power_of_two` | propext, Quot.sound |
| C46 | `Verif.Xlat.C46_transient_reserved` | propext, Classical.choice, Quot.sound |
| C46 | `Verif.Xlat.C46_tte_range` | propext, Classical.choice, Quot.sound |
| C46 | `Verif.Xlat.C46_tte_wrap` | propext |
| C46 | `Verif.Xlat.C46_writable_never_executable` | propext, Classical.choice, Quot.sound |
| C47 | `Verif.Conc.C47_ns_slot_free` | propext, Quot.sound |
| C47 | `Verif.Conc.C47_slot_numbers` | propext |
| C47 | `Verif.Conc.C47_slots_balanced` | propext, Classical.choice, Quot.sound |
| C47 | `Verif.Slot.C47_empty_check` | propext, Classical.choice, Quot.sound |
| C47 | `Verif.Slot.C47_no_failure` | propext, Classical.choice, Quot.sound |
| C47 | `Verif.Slot.C47_ns_read` | propext, Classical.choice, Quot.sound |
| C47 | `Verif.Slot.C47_ns_write` | propext, Classical.choice, Quot.sound |
| C47 | `Verif.Slot.C47_private` | propext, Quot.sound |
| C47 | `Verif.Slot.C47_rest_untouched` | propext, Classical.choice, Quot.sound |
| C47 | `Verif.Slot.C47_slot_view` | propext, Classical.choice, Quot.sound |
| C47 | `Verif.Slot.C47_start` | propext, Classical.choice, Quot.sound |
| C47 | `Verif.Xlat.C47_llt` | propext, Quot.sound |
| C48 | `Verif.Run.C48_contract` | propext, Classical.choice, Quot.sound |
| C48 | `Verif.Run.C48_psci_hint` | propext, Quot.sound |
| C48 | `Verif.Run.C48_unknown` | propext, Quot.sound |
| C49 | `Verif.Run.C49_asgi1r_asserts` | propext, Classical.choice, Quot.sound |
| C49 | `Verif.Run.C49_exit` | propext, Classical.choice, Quot.sound |
| C49 | `Verif.Run.C49_exit_only` | propext, Classical.choice, Quot.sound |
| C49 | `Verif.Run.C49_id_read` | propext, Classical.choice, Quot.sound |
| C49 | `Verif.Run.C49_id_write` | propext, Classical.choice, Quot.sound |
| C49 | `Verif.Run.C49_pmr_asserts` | propext, Classical.choice, Quot.sound |
| C49 | `Verif.Run.C49_razwi` | propext, Classical.choice, Quot.sound |
| C50 | `Verif.Features.C50_feature_register` | propext, Classical.choice, Quot.sound |
| C51 | `Verif.Vtcr.C51_first_iff_partial` | propext, Classical.choice, Quot.sound |
| C51 | `Verif.Vtcr.C51_geometry` | propext, Classical.choice, Quot.sound |
| C51 | `Verif.Vtcr.C51_misaligned` | propext, Classical.choice, Quot.sound |
| C51 | `Verif.Vtcr.C51_pmu` | propext, Classical.choice, Quot.sound |
| C51 | `Verif.Vtcr.C51_root_of_another` | propext, Quot.sound |
| C51 | `Verif.Vtcr.C51_truncated` | propext, Quot.sound |
| C51 | `Verif.Vtcr.C51_vmid` | propext, Classical.choice, Quot.sound |
| C51 | `Verif.Vtcr.C51_vmid_distinct` | propext, Classical.choice, Quot.sound |
| C51 | `Verif.Vtcr.C51_walk_partial` | propext, Classical.choice, Quot.sound |
| C52 | `Verif.Rmm.C52_through_delegated` | propext, Classical.choice, Quot.sound |
| C52 | `Verif.Rmm.C52_transitions` | propext, Classical.choice, Quot.sound |
| C53 | `Verif.Ni.C53_assert` | propext, Classical.choice, Quot.sound |
| C53 | `Verif.Ni.C53_hidden` | propext, Classical.choice, Quot.sound |
| C53 | `Verif.Ni.C53_noninterference` | propext, Classical.choice, Quot.sound |
| C53 | `Verif.Ni.C53_sameRealm` | propext, Classical.choice, Quot.sound |
| C54 | `Verif.Run.C54_config` | propext, Quot.sound |
| C54 | `Verif.Run.C54_ipa_state_get` | propext, Classical.choice, Quot.sound |
| C54 | `Verif.Run.C54_walk` | propext, Classical.choice, Quot.sound |
| C54 | `Verif.Run.C54_writes_no_other` | propext, Classical.choice, Quot.sound |
| C54 | `Verif.Run.C54_writes_own_memory` | propext, Classical.choice, Quot.sound |
| C55 | `Verif.Run.C55_report` | propext, Quot.sound |
| C55 | `Verif.Run.C55_run` | propext, Classical.choice, Quot.sound |
| C55 | `Verif.Run.C55_told` | propext, Classical.choice, Quot.sound |
| C56 | `Verif.Log.C56_any_format` | propext, Classical.choice, Quot.sound |
| C56 | `Verif.Log.C56_dangling_percent` | propext, Classical.choice, Quot.sound |
| C56 | `Verif.Log.C56_snprintf` | propext, Classical.choice, Quot.sound |
| C57 | `Verif.Mem.C57_dcache` | propext, Classical.choice, Quot.sound |
| C57 | `Verif.Mem.C57_dcache_top` | propext, Quot.sound |
| C57 | `Verif.Mem.C57_memcmp` | propext, Classical.choice, Quot.sound |
| C57 | `Verif.Mem.C57_memcpy` | propext, Classical.choice, Quot.sound |
| C57 | `Verif.Mem.C57_memmove` | propext, Classical.choice, Quot.sound |
| C57 | `Verif.Mem.C57_memset` | propext, Classical.choice, Quot.sound |
| C57 | `Verif.Mem.C57_memzero` | propext, Classical.choice, Quot.sound |
| C57 | `Verif.Mem.C57_strchr` | propext, Classical.choice, Quot.sound |
| C57 | `Verif.Mem.C57_strcmp` | propext, Classical.choice, Quot.sound |
| C57 | `Verif.Mem.C57_strlcpy` | propext, Classical.choice, Quot.sound |
| C57 | `Verif.Mem.C57_strlen` | propext, Classical.choice, Quot.sound |
| C57 | `Verif.Mem.C57_strncmp` | propext, Classical.choice, Quot.sound |
| C57 | `Verif.Mem.C57_strnlen` | propext, Quot.sound |
| C58 | `Verif.Conc.C40_rec_create_unlocks_unheld` | propext |
| C58 | `Verif.Conc.C58_all_released_partial` | propext, Quot.sound |
| C58 | `Verif.Conc.C58_map_protected_partial` | propext, Quot.sound |
| C58 | `Verif.Conc.C58_state_change_locked_partial` | propext, Quot.sound |
| C59 | `Verif.Run.C59_abort` | propext, Classical.choice, Quot.sound |
| C59 | `Verif.Run.C59_data` | propext, Classical.choice, Quot.sound |
| C59 | `Verif.Run.C59_external` | propext, Classical.choice, Quot.sound |
| C59 | `Verif.Run.C59_fetch` | propext, Classical.choice, Quot.sound |
| C59 | `Verif.Run.C59_hvc` | propext, Quot.sound |
| C59 | `Verif.Run.C59_sea` | propext, Classical.choice, Quot.sound |
| C59 | `Verif.Run.C59_simd` | propext, Quot.sound |
| C59 | `Verif.Run.C59_undef` | propext, Quot.sound |
| C60 | `Verif.Run.C60_continues` | propext, Classical.choice, Quot.sound |
| C60 | `Verif.Run.C60_hcr` | propext, Quot.sound |
| C60 | `Verif.Run.C60_registers` | propext, Quot.sound |
| C61 | `Verif.Simd.C61_area` | propext, Quot.sound |
| C61 | `Verif.Simd.C61_fresh` | propext, Classical.choice, Quot.sound |
| C61 | `Verif.Simd.C61_host` | propext, Classical.choice, Quot.sound |
| C61 | `Verif.Simd.C61_realm` | propext, Classical.choice, Quot.sound |
| C61 | `Verif.Simd.C61_rmm` | propext, Classical.choice, Quot.sound |
| C61 | `Verif.Simd.C61_total` | propext, Classical.choice, Quot.sound |
| C61 | `Verif.Simd.C61_trap` | propext, Classical.choice, Quot.sound |
| C62 | `Verif.Switch.Asm.C62_enter` | propext, Quot.sound |
| C62 | `Verif.Switch.Asm.C62_leave` | propext, Classical.choice, Quot.sound |
| C62 | `Verif.Switch.C62_counter_taken` | propext, Classical.choice, Quot.sound |
| C62 | `Verif.Switch.C62_counters_partial` | propext, Classical.choice, Quot.sound |
| C62 | `Verif.Switch.C62_disr_shared` | propext, Classical.choice, Quot.sound |
| C62 | `Verif.Switch.C62_fresh` | propext, Classical.choice, Quot.sound |
| C62 | `Verif.Switch.C62_host` | propext, Classical.choice, Quot.sound |
| C62 | `Verif.Switch.C62_host_pmu` | propext, Classical.choice, Quot.sound |
| C62 | `Verif.Switch.C62_host_pmu_off` | propext, Classical.choice, Quot.sound |
| C62 | `Verif.Switch.C62_loaded` | propext, Classical.choice, Quot.sound |
| C62 | `Verif.Switch.C62_recOk` | propext, Classical.choice, Quot.sound |
| C62 | `Verif.Switch.C62_resume` | propext, Classical.choice, Quot.sound |
| C62 | `Verif.Switch.C62_rmm` | propext, Quot.sound |
| C62 | `Verif.Switch.C62_saved` | propext, Classical.choice, Quot.sound |
| C62 | `Verif.Switch.C62_serror_lost` | propext, Classical.choice, Quot.sound |
| C62 | `Verif.Switch.C62_stay` | propext, Quot.sound |
| C63 | `Verif.Trap.C63_bound` | propext, Classical.choice, Quot.sound |
| C63 | `Verif.Trap.C63_else_fatal` | propext, Quot.sound |
| C63 | `Verif.Trap.C63_not_fatal` | propext, Classical.choice, Quot.sound |
| C63 | `Verif.Trap.C63_ns_buffer` | propext, Classical.choice, Quot.sound |
| C63 | `Verif.Trap.C63_progress` | propext, Classical.choice, Quot.sound |
| C63 | `Verif.Trap.C63_read` | propext, Classical.choice, Quot.sound |
| C63 | `Verif.Trap.C63_sites` | propext |
| C63 | `Verif.Trap.C63_write` | propext, Classical.choice, Quot.sound |
| C64 | `Verif.Desc.C64_mmu` | propext, Classical.choice, Quot.sound |
| C64 | `Verif.Desc.C64_mmu_exclusive` | propext, Classical.choice, Quot.sound |
| C64 | `Verif.Desc.C64_reach` | propext, Classical.choice, Quot.sound |
| C64 | `Verif.Desc.C64_step` | propext, Classical.choice, Quot.sound |
| C64 | `Verif.Desc.C64_trace` | propext, Classical.choice, Quot.sound |
| C64 | `Verif.Desc.C64_translate` | propext, Classical.choice, Quot.sound |
| C65 | `Verif.Atom.C65_assert` | propext, Classical.choice, Quot.sound |
| C65 | `Verif.Atom.C65_data_create_code` | propext, Quot.sound |
| C65 | `Verif.Atom.C65_exclusive` | propext, Classical.choice, Quot.sound |
| C65 | `Verif.Atom.C65_linearizable` | propext, Classical.choice, Quot.sound |
| C65 | `Verif.Atom.C65_no_deadlock` | propext, Classical.choice, Quot.sound |
| C65 | `Verif.Atom.C65_reach` | propext, Classical.choice, Quot.sound |
| C65 | `Verif.Atom.C65_terminate` | propext, Classical.choice, Quot.sound |
| C66 | `Verif.Sign.C66_assert` | propext, Classical.choice, Quot.sound |
| C66 | `Verif.Sign.C66_own_partial` | propext, Classical.choice, Quot.sound |
| C66 | `Verif.Sign.C66_race_assert` | propext |
| C66 | `Verif.Sign.C66_race_crash` | propext |
| C66 | `Verif.Sign.C66_race_stale` | propext |
| C66 | `Verif.Sign.C66_ticket` | propext, Classical.choice, Quot.sound |
| C66 | `Verif.Sign.C66_wrong_buffer` | propext |
| C67 | `Verif.Sign.C67_lock_leak` | propext, Quot.sound |
| C67 | `Verif.Sign.C67_progress_partial` | propext, Classical.choice, Quot.sound |
| C68 | `Verif.Boot.C68_cold_once` | propext, Quot.sound |
| C68 | `Verif.Boot.C68_eh_stacks_apart` | propext, Classical.choice, Quot.sound |
| C68 | `Verif.Boot.C68_entry_up` | propext, Quot.sound |
| C68 | `Verif.Boot.C68_layout_assert_gap` | propext, Classical.choice, Quot.sound |
| C68 | `Verif.Boot.C68_layout_ok` | propext, Classical.choice, Quot.sound |
| C68 | `Verif.Boot.C68_mov_imm_exact` | propext, Classical.choice, Quot.sound |
| C68 | `Verif.Boot.C68_mov_imm_precedence` | propext, Quot.sound |
| C68 | `Verif.Boot.C68_reloc_at_zero` | none |
| C68 | `Verif.Boot.C68_reloc_empty_got` | none |
| C68 | `Verif.Boot.C68_reloc_exact` | propext, Classical.choice, Quot.sound |
| C68 | `Verif.Boot.C68_reloc_twice` | propext, Classical.choice, Quot.sound |
| C68 | `Verif.Boot.C68_stacks_apart` | propext, Quot.sound |
| C69 | `Verif.Boot.C69_att_ready` | propext, Classical.choice, Quot.sound |
| C69 | `Verif.Boot.C69_key_clean` | propext, Classical.choice, Quot.sound |
| C69 | `Verif.Boot.C69_key_code` | none |
| C69 | `Verif.Boot.C69_key_el3` | none |
| C69 | `Verif.Boot.C69_key_fits` | propext, Quot.sound |
| C69 | `Verif.Boot.C69_key_once` | none |
| C69 | `Verif.Boot.C69_prng_per_cpu` | propext, Classical.choice, Quot.sound |
| C69 | `Verif.Boot.C69_seed_random` | propext |
| C69 | `Verif.Boot.C69_token_bound` | propext, Classical.choice, Quot.sound |
| C69 | `Verif.Boot.C69_token_code` | propext, Quot.sound |
| C69 | `Verif.Boot.C69_token_complete` | propext, Classical.choice, Quot.sound |
| C69 | `Verif.Boot.C69_token_lock` | propext, Quot.sound |
| C69 | `Verif.Boot.C69_token_ok` | propext, Classical.choice, Quot.sound |
| C69 | `Verif.Boot.C69_token_safe` | propext, Classical.choice, Quot.sound |
| C69 | `Verif.Boot.C69_token_wrap` | propext, Quot.sound |
| C70 | `Verif.Weak.C70_asserts` | propext, Classical.choice, Quot.sound |
| C70 | `Verif.Weak.C70_latest` | propext, Classical.choice, Quot.sound |
| C70 | `Verif.Weak.C70_needed` | propext, Quot.sound |
| C70 | `Verif.Weak.C70_refines` | propext, Classical.choice, Quot.sound |
| C71 | `Verif.Attest.C71_cca` | propext, Classical.choice, Quot.sound |
| C71 | `Verif.Attest.C71_default_size` | propext, Classical.choice, Quot.sound |
| C71 | `Verif.Attest.C71_init` | propext, Classical.choice, Quot.sound |
| C71 | `Verif.Attest.C71_order` | propext |
| C71 | `Verif.Attest.C71_sign` | propext, Classical.choice, Quot.sound |
| C72 | `Verif.Xlat.C72_code_only` | propext, Classical.choice, Quot.sound |
| C72 | `Verif.Xlat.C72_map` | propext, Classical.choice, Quot.sound |
| C72 | `Verif.Xlat.C72_null_faults` | propext, Classical.choice, Quot.sound |
| C72 | `Verif.Xlat.C72_null_mapped` | propext, Classical.choice, Quot.sound |
| C72 | `Verif.Xlat.C72_refuse` | propext, Classical.choice, Quot.sound |
| C72 | `Verif.Xlat.C72_ro_protected` | propext, Classical.choice, Quot.sound |
| C72 | `Verif.Xlat.C72_rw_guard` | propext, Classical.choice, Quot.sound |
| C72 | `Verif.Xlat.C72_same_everywhere` | propext, Classical.choice, Quot.sound |
| C72 | `Verif.Xlat.C72_stack_alias` | propext, Classical.choice, Quot.sound |
| C72 | `Verif.Xlat.C72_stacks` | propext, Classical.choice, Quot.sound |
| C72 | `Verif.Xlat.C72_write_xor_execute` | propext, Classical.choice, Quot.sound |
| C73 | `Verif.Atom.C73_contents` | propext, Classical.choice, Quot.sound |
| C73 | `Verif.Atom.C73_linearizable` | propext, Classical.choice, Quot.sound |
| C73 | `Verif.Atom.C73_maps` | propext, Classical.choice, Quot.sound |
| C73 | `Verif.Atom.C73_no_deadlock` | propext, Classical.choice, Quot.sound |
| C73 | `Verif.Atom.C73_no_fail` | propext, Classical.choice, Quot.sound |
| C73 | `Verif.Atom.C73_reach` | propext, Classical.choice, Quot.sound |
| C74 | `Verif.Spin.C74_mutex` | propext, Classical.choice, Quot.sound |
| C74 | `Verif.Spin.C74_needed` | propext |
| C74 | `Verif.Spin.C74_progress` | propext, Classical.choice, Quot.sound |
| C74 | `Verif.Spin.C74_refines` | propext, Classical.choice, Quot.sound |
| C74 | `Verif.Spin.C74_wakeup` | propext, Classical.choice, Quot.sound |
| C74 | `Verif.Wake.C74_granule_mutex` | propext, Classical.choice, Quot.sound |
| C74 | `Verif.Wake.C74_granule_needed` | propext, Quot.sound |
| C74 | `Verif.Wake.C74_granule_progress` | propext, Classical.choice, Quot.sound |
| C74 | `Verif.Wake.C74_granule_wakeup` | propext, Classical.choice, Quot.sound |
| C75 | `Verif.Atom.C75_counts` | propext, Classical.choice, Quot.sound |
| C75 | `Verif.Atom.C75_unlock_checks` | propext, Classical.choice, Quot.sound |
| C76 | `Verif.Console.C76_ends` | propext, Quot.sound |
| C76 | `Verif.Console.C76_list_partial` | propext, Classical.choice, Quot.sound |
| C76 | `Verif.Console.C76_list_wrap` | propext, Quot.sound |
| C76 | `Verif.Console.C76_lost` | propext |
| C76 | `Verif.Console.C76_output_partial` | propext, Quot.sound |
| C76 | `Verif.Console.C76_register` | none |
| C76 | `Verif.Console.C76_setup` | propext, Classical.choice, Quot.sound |
| C76 | `Verif.Console.C76_uart_partial` | propext, Classical.choice, Quot.sound |
| C76 | `Verif.Console.C76_uart_wrap` | propext, Quot.sound |
| C77 | `Verif.Crash.C77_backtrace` | propext, Classical.choice, Quot.sound |
| C77 | `Verif.Crash.C77_dump` | propext, Quot.sound |
| C78 | `Verif.HeapCpu.C78_exclusive` | propext, Classical.choice, Quot.sound |
| C78 | `Verif.HeapCpu.C78_frame` | propext, Classical.choice, Quot.sound |
| C78 | `Verif.HeapCpu.C78_no_assert` | propext, Classical.choice, Quot.sound |
| C78 | `Verif.HeapCpu.C78_sequential` | propext, Classical.choice, Quot.sound |
| C79 | `Verif.Pac.C79_attribute_needed` | propext, Quot.sound |
| C79 | `Verif.Pac.C79_forged_fails` | propext, Classical.choice, Quot.sound |
| C79 | `Verif.Pac.C79_isb_needed` | propext, Quot.sound |
| C79 | `Verif.Pac.C79_key_changes` | propext, Classical.choice, Quot.sound |
| C79 | `Verif.Pac.C79_never_fails` | propext, Classical.choice, Quot.sound |
| C79 | `Verif.Pac.C79_own_key` | propext, Classical.choice, Quot.sound |
| C79 | `Verif.Pac.C79_signs_with_own_key` | propext, Classical.choice, Quot.sound |
| C80 | `Verif.Vtcr.Arch.C80_counters` | propext, Classical.choice, Quot.sound |
| C80 | `Verif.Vtcr.Arch.C80_history_partial` | propext, Classical.choice, Quot.sound |
| C80 | `Verif.Vtcr.Arch.C80_history_shows` | propext, Quot.sound |
| C80 | `Verif.Vtcr.Arch.C80_realm_settings` | propext, Classical.choice, Quot.sound |
| C81 | `Verif.Life.C81_assert` | propext, Classical.choice, Quot.sound |
| C81 | `Verif.Life.C81_command` | propext, Classical.choice, Quot.sound |
| C81 | `Verif.Life.C81_double_unlock` | propext, Quot.sound |
| C81 | `Verif.Life.C81_exclusive` | propext, Classical.choice, Quot.sound |
| C81 | `Verif.Life.C81_exit` | propext, Classical.choice, Quot.sound |
| C81 | `Verif.Life.C81_late_reference` | propext, Quot.sound |
| C81 | `Verif.Life.C81_no_deadlock` | propext, Classical.choice, Quot.sound |
| C81 | `Verif.Life.C81_page_read_before` | propext, Quot.sound |
| C81 | `Verif.Life.C81_pas` | propext, Classical.choice, Quot.sound |
| C81 | `Verif.Life.C81_quiet` | propext, Classical.choice, Quot.sound |
| C81 | `Verif.Life.C81_refs` | propext, Classical.choice, Quot.sound |
| C81 | `Verif.Life.C81_serial` | propext, Classical.choice, Quot.sound |
| C81 | `Verif.Life.C81_spurious_failure` | propext, Quot.sound |
| C81 | `Verif.Life.C81_success` | propext, Classical.choice, Quot.sound |
| C81 | `Verif.Life.C81_terminate` | propext, Classical.choice, Quot.sound |
| C81 | `Verif.Life.C81_vmid` | propext, Classical.choice, Quot.sound |
| C81 | `Verif.Life.C81_zero` | propext, Classical.choice, Quot.sound |
| C82 | `Verif.Log.C82_binary_cut` | propext, Classical.choice, Quot.sound |
| C82 | `Verif.Log.C82_conversion_partial` | propext, Classical.choice, Quot.sound |
| C82 | `Verif.Log.C82_hash_drops_digits` | propext, Classical.choice, Quot.sound |
| C82 | `Verif.Log.C82_hhd_unsigned` | propext, Classical.choice, Quot.sound |
| C82 | `Verif.Log.C82_least_int` | propext, Classical.choice, Quot.sound |
| C82 | `Verif.Log.C82_left_precision` | propext, Classical.choice, Quot.sound |
| C82 | `Verif.Log.C82_negative_precision` | propext, Classical.choice, Quot.sound |
| C82 | `Verif.Log.C82_zeros_stop` | propext, Classical.choice, Quot.sound |
| C83 | `Verif.Switch.C83_again` | propext, Quot.sound |
| C83 | `Verif.Switch.C83_disr` | propext, Classical.choice, Quot.sound |
| C83 | `Verif.Switch.C83_no_reset` | propext, Classical.choice, Quot.sound |
| C83 | `Verif.Switch.C83_on_partial` | propext, Classical.choice, Quot.sound |
| C83 | `Verif.Switch.C83_recOk` | propext, Classical.choice, Quot.sound |
| C83 | `Verif.Switch.C83_sctlr` | propext, Quot.sound |
| C83 | `Verif.Switch.C83_start_partial` | propext, Classical.choice, Quot.sound |
| C83 | `Verif.Switch.C83_zero_needed` | propext, Quot.sound |
| C84 | `Verif.Rmm.C84_activate` | propext, Classical.choice, Quot.sound |
| C84 | `Verif.Rmm.C84_not_measured` | propext, Quot.sound |
| C84 | `Verif.Rmm.C84_recs` | propext, Classical.choice, Quot.sound |
| C84 | `Verif.Rmm.C84_same_log` | propext, Classical.choice, Quot.sound |
| C84 | `Verif.Rmm.C84_same_start` | propext, Classical.choice, Quot.sound |
| C84 | `Verif.Rmm.C84_start` | propext, Classical.choice, Quot.sound |
| C84 | `Verif.Rmm.C84_start_active` | propext, Classical.choice, Quot.sound |
| C85 | `Verif.Run.C85_delivery_partial` | propext, Classical.choice, Quot.sound |
| C85 | `Verif.Run.C85_implementation_defined` | propext, Quot.sound |
| C85 | `Verif.Run.C85_kept` | propext, Quot.sound |
| C85 | `Verif.Run.C85_lost` | propext, Classical.choice, Quot.sound |
| C85 | `Verif.Run.C85_once` | propext, Classical.choice, Quot.sound |
| C85 | `Verif.Run.C85_report_partial` | propext, Classical.choice, Quot.sound |
| C85 | `Verif.Run.C85_stops` | propext, Quot.sound |
| C85 | `Verif.Run.C85_timer_keeps` | propext, Classical.choice, Quot.sound |
| C85 | `Verif.Run.C85_unmasked_partial` | propext, Classical.choice, Quot.sound |
| C86 | `Verif.Run.C86_features_partial` | propext, Classical.choice, Quot.sound |
| C86 | `Verif.Run.C86_rsi_version` | propext, Quot.sound |
| C86 | `Verif.Run.C86_version_denied` | propext, Quot.sound |
