{
 "claims": [
  {
   "property": "C01",
   "status": "proved",
   "theorems": [
    "Ramwich.C01_slices_recombine"
   ],
   "note": "Exact rationals for floats; hypothesis Simulable collects the configuration ranges under which the code can run."
  },
  {
   "property": "C02",
   "status": "proved",
   "theorems": [
    "Ramwich.C02_half_lsb_iff",
    "Ramwich.C02_out_of_range_witness"
   ],
   "note": "Claim as first imagined is false of the code; exact iff plus witness proved."
  },
  {
   "property": "C03",
   "status": "proved",
   "theorems": [
    "Ramwich.C03_input_slices"
   ],
   "note": ""
  },
  {
   "property": "C04",
   "status": "proved",
   "theorems": [
    "Ramwich.C04_mvm_exact",
    "Ramwich.C04_mvm_is_product",
    "Ramwich.C04_negative_input_witness"
   ],
   "note": "Negative register contents enter modulo 2^activation_width; C04_negative_input_witness shows the product is then wrong."
  },
  {
   "property": "C05",
   "status": "proved",
   "theorems": [
    "Ramwich.C05_unit_refines_spec",
    "Ramwich.C05_mvm_formula",
    "Ramwich.C05_dac_resolution_witness",
    "Ramwich.C05_mvm_any_resolution"
   ],
   "note": "Refinement of the whole unit for every call history, formula, and witness for DAC resolution > 1."
  },
  {
   "property": "C06",
   "status": "proved",
   "theorems": [
    "Ramwich.C06_storage_independent"
   ],
   "note": ""
  },
  {
   "property": "C07",
   "status": "proved",
   "theorems": [
    "Ramwich.C07_small_noise_invisible",
    "Ramwich.C07_half_step_visible"
   ],
   "note": ""
  },
  {
   "property": "C08",
   "status": "proved",
   "theorems": [
    "Ramwich.C08_gmin_offset",
    "Ramwich.C08_gmin_witness"
   ],
   "note": ""
  },
  {
   "property": "C09",
   "status": "proved",
   "theorems": [
    "Ramwich.C09_history_irrelevant",
    "Ramwich.C09_inputs_consumed",
    "Ramwich.C09_negative_input_residue_witness"
   ],
   "note": ""
  },
  {
   "property": "C10",
   "status": "proved",
   "theorems": [
    "Ramwich.C10_adc_convert"
   ],
   "note": ""
  },
  {
   "property": "C11",
   "status": "proved",
   "theorems": [
    "Ramwich.C11_read_floor"
   ],
   "note": ""
  },
  {
   "property": "C12",
   "status": "proved",
   "theorems": [
    "Ramwich.C12_memory_answers",
    "Ramwich.C12_read_after_write"
   ],
   "note": ""
  },
  {
   "property": "C13",
   "status": "proved",
   "theorems": [
    "Ramwich.C13_memory_bounds"
   ],
   "note": ""
  },
  {
   "property": "C14",
   "status": "proved",
   "theorems": [
    "Ramwich.C14_memory_stats"
   ],
   "note": ""
  },
  {
   "property": "C15",
   "status": "proved",
   "theorems": [
    "Ramwich.C15_core_write",
    "Ramwich.C15_no_units_witness"
   ],
   "note": ""
  },
  {
   "property": "C16",
   "status": "proved",
   "theorems": [
    "Ramwich.C16_core_read"
   ],
   "note": ""
  },
  {
   "property": "C17",
   "status": "proved",
   "theorems": [
    "Ramwich.C17_cache_flat",
    "Ramwich.C17_inputs_invisible"
   ],
   "note": ""
  },
  {
   "property": "C18",
   "status": "proved",
   "theorems": [
    "Ramwich.C18_vfu_range",
    "Ramwich.C18_vfu_range_all"
   ],
   "note": ""
  },
  {
   "property": "C19",
   "status": "proved",
   "theorems": [
    "Ramwich.C19_vfu_math",
    "Ramwich.C19_bits"
   ],
   "note": ""
  },
  {
   "property": "C20",
   "status": "proved",
   "theorems": [
    "Ramwich.C20_mul_wraps_witness",
    "Ramwich.C20_mul_exact_iff"
   ],
   "note": ""
  },
  {
   "property": "C21",
   "status": "proved",
   "theorems": [
    "Ramwich.C21_vfu_errors",
    "Ramwich.C21_vfu_errors_no_stats",
    "Ramwich.C21_unary_ignores_second",
    "Ramwich.C21_vfu_lengths",
    "Ramwich.C21_vfu_ints"
   ],
   "note": ""
  },
  {
   "property": "C22",
   "status": "proved",
   "theorems": [
    "Ramwich.C22_vfu_stats"
   ],
   "note": ""
  },
  {
   "property": "C23",
   "status": "proved",
   "theorems": [
    "Ramwich.C23_memory_latency",
    "Ramwich.C23_vfu_latency",
    "Ramwich.C23_latency_excess_witness",
    "Ramwich.C23_latency_monotone",
    "Ramwich.C23_mvm_latency"
   ],
   "note": ""
  },
  {
   "property": "C24",
   "status": "proved",
   "theorems": [
    "Ramwich.Pipeline.C24_in_order",
    "Ramwich.Pipeline.C24_step"
   ],
   "note": ""
  },
  {
   "property": "C25",
   "status": "proved",
   "theorems": [
    "Ramwich.Pipeline.C25_stops_at_hlt",
    "Ramwich.Pipeline.C25_nothing_after_hlt"
   ],
   "note": ""
  },
  {
   "property": "C26",
   "status": "proved",
   "theorems": [
    "Ramwich.Pipeline.C26_not_stuck",
    "Ramwich.Pipeline.C26_terminates",
    "Ramwich.Pipeline.C26_no_hlt"
   ],
   "note": ""
  },
  {
   "property": "C27",
   "status": "proved",
   "theorems": [
    "Ramwich.Pipeline.C27_buffers"
   ],
   "note": ""
  },
  {
   "property": "C28",
   "status": "proved",
   "theorems": [
    "Ramwich.C28_read_latest",
    "Ramwich.C28_contents"
   ],
   "note": ""
  },
  {
   "property": "C29",
   "status": "proved",
   "theorems": [
    "Ramwich.C29_writes_in_order"
   ],
   "note": ""
  },
  {
   "property": "C30",
   "status": "proved",
   "theorems": [
    "Ramwich.C30_sees_earlier_writes"
   ],
   "note": ""
  },
  {
   "property": "C31",
   "status": "proved",
   "theorems": [
    "Ramwich.C31_exactly_once",
    "Ramwich.C31_answered_once"
   ],
   "note": ""
  },
  {
   "property": "C32",
   "status": "proved",
   "theorems": [
    "Ramwich.C32_released",
    "Ramwich.C32_first",
    "Ramwich.C32_skipped",
    "Ramwich.C32_skip_witness",
    "Ramwich.C32_waits_forever",
    "Ramwich.C32_skipped_forever"
   ],
   "note": ""
  },
  {
   "property": "C33",
   "status": "proved",
   "theorems": [
    "Ramwich.C33_not_stuck",
    "Ramwich.C33_becomes_idle",
    "Ramwich.C33_all_answered"
   ],
   "note": ""
  },
  {
   "property": "C34",
   "status": "proved",
   "theorems": [
    "Ramwich.C34_never_answered",
    "Ramwich.C34_aborts"
   ],
   "note": ""
  },
  {
   "property": "C35",
   "status": "proved",
   "theorems": [
    "Ramwich.C35_validity_step",
    "Ramwich.C35_monotone",
    "Ramwich.C35_reset"
   ],
   "note": ""
  },
  {
   "property": "C36",
   "status": "proved",
   "theorems": [
    "Ramwich.C36_request_counts",
    "Ramwich.C36_times",
    "Ramwich.C36_one_at_a_time"
   ],
   "note": ""
  },
  {
   "property": "C37",
   "status": "proved",
   "theorems": [
    "Ramwich.C37_delivery",
    "Ramwich.C37_prefix",
    "Ramwich.C37_complete"
   ],
   "note": ""
  },
  {
   "property": "C38",
   "status": "proved",
   "theorems": [
    "Ramwich.C38_capacity",
    "Ramwich.C38_source"
   ],
   "note": ""
  },
  {
   "property": "C39",
   "status": "proved",
   "theorems": [
    "Ramwich.C39_created",
    "Ramwich.C39_sent",
    "Ramwich.C39_sent_le",
    "Ramwich.C39_received",
    "Ramwich.C39_received_rest",
    "Ramwich.C39_lag_witness"
   ],
   "note": "'sent <= created' is false while an add_send_packet is in its timeout (C39_lag_witness); exact identities proved instead."
  },
  {
   "property": "C40",
   "status": "proved",
   "theorems": [
    "Ramwich.C40_latency",
    "Ramwich.C40_latency_any",
    "Ramwich.C40_no_internode",
    "Ramwich.C40_other_node"
   ],
   "note": ""
  },
  {
   "property": "C41",
   "status": "proved",
   "theorems": [
    "Ramwich.C41_blocked",
    "Ramwich.C41_head_progress",
    "Ramwich.C41_deadlock"
   ],
   "note": "The optimistic claim is refuted for every run, latency and data of a three-tile program with matched shapes (C41_deadlock); blocking and head progress are proved for the network."
  },
  {
   "property": "C42",
   "status": "proved",
   "theorems": [
    "Ramwich.C42_rows",
    "Ramwich.C42_transfer",
    "Ramwich.C42_block_written",
    "Ramwich.C42_others_unchanged"
   ],
   "note": ""
  },
  {
   "property": "C43",
   "status": "proved",
   "theorems": [
    "Ramwich.C43_mismatch",
    "Ramwich.C43_only_complete_receives_write"
   ],
   "note": ""
  },
  {
   "property": "C44",
   "status": "proved",
   "theorems": [
    "Ramwich.C44_prefix",
    "Ramwich.C44_same_result"
   ],
   "note": "singleAssignment is a hypothesis on one finished run; the other run is arbitrary."
  },
  {
   "property": "C45",
   "status": "proved",
   "theorems": [
    "Ramwich.C45_router_stop",
    "Ramwich.C45_halted",
    "Ramwich.C45_stop_fails_nothing"
   ],
   "note": ""
  },
  {
   "property": "C46",
   "status": "proved",
   "theorems": [
    "Ramwich.C46_one_outstanding",
    "Ramwich.C46_sequential",
    "Ramwich.C46_no_time",
    "Ramwich.C46_no_time_load"
   ],
   "note": ""
  },
  {
   "property": "C47",
   "status": "proved",
   "theorems": [
    "Ramwich.C47_merge_adds",
    "Ramwich.C47_merge_all",
    "Ramwich.C47_merge_order",
    "Ramwich.C47_sharing_witness"
   ],
   "note": ""
  },
  {
   "property": "C48",
   "status": "proved",
   "theorems": [
    "Ramwich.C48_report",
    "Ramwich.C48_report_levels",
    "Ramwich.C48_summary",
    "Ramwich.C48_succeeds",
    "Ramwich.C48_no_tiles_witness",
    "Ramwich.C48_sram_area_witness"
   ],
   "note": ""
  },
  {
   "property": "C49",
   "status": "proved",
   "theorems": [
    "Ramwich.C49_repeatable",
    "Ramwich.C49_same_error"
   ],
   "note": ""
  },
  {
   "property": "C50",
   "status": "proved",
   "theorems": [
    "Ramwich.C50_loaded",
    "Ramwich.C50_numbering",
    "Ramwich.C50_pending_kept",
    "Ramwich.C50_core",
    "Ramwich.C50_core_exact",
    "Ramwich.C50_next_run",
    "Ramwich.C50_sram_only",
    "Ramwich.C50_sram_counts_witness",
    "Ramwich.C50_times_kept",
    "Ramwich.C50_not_halted",
    "Ramwich.C50_early_end_witness",
    "Ramwich.C50_dead_sender"
   ],
   "note": ""
  },
  {
   "property": "C51",
   "status": "proved",
   "theorems": [
    "Ramwich.C51_load",
    "Ramwich.C51_all_placed",
    "Ramwich.C51_other_files",
    "Ramwich.C51_fields",
    "Ramwich.C51_typed",
    "Ramwich.C51_not_an_operation",
    "Ramwich.C51_untyped",
    "Ramwich.C51_numbering"
   ],
   "note": ""
  },
  {
   "property": "C52",
   "status": "proved",
   "theorems": [
    "Ramwich.C52_round_trip",
    "Ramwich.C52_load",
    "Ramwich.C52_last",
    "Ramwich.C52_long_id",
    "Ramwich.C52_other_files"
   ],
   "note": ""
  },
  {
   "property": "C53",
   "status": "proved",
   "theorems": [
    "Ramwich.C53_loaded",
    "Ramwich.C53_unchanged",
    "Ramwich.C53_no_tile",
    "Ramwich.C53_default",
    "Ramwich.C53_default_race_witness"
   ],
   "note": ""
  },
  {
   "property": "C54",
   "status": "proved",
   "theorems": [
    "Ramwich.C54_accepted_iff",
    "Ramwich.C54_bits_mismatch_rejected",
    "Ramwich.C54_derived",
    "Ramwich.C54_flag_witness"
   ],
   "note": ""
  },
  {
   "property": "C55",
   "status": "proved",
   "theorems": [
    "Ramwich.C55_format_iff",
    "Ramwich.C55_format_rejected",
    "Ramwich.C55_format_round_trip",
    "Ramwich.C55_data_config"
   ],
   "note": ""
  },
  {
   "property": "C56",
   "status": "proved",
   "theorems": [
    "Ramwich.C56_float_to_fixed_nearest",
    "Ramwich.C56_fixed_round_trip",
    "Ramwich.C56_float_round_trip"
   ],
   "note": ""
  },
  {
   "property": "C57",
   "status": "proved",
   "theorems": [
    "Ramwich.C57_mvm_counters"
   ],
   "note": ""
  },
  {
   "property": "C58",
   "status": "proved",
   "theorems": [
    "Ramwich.C58_core_program"
   ],
   "note": ""
  },
  {
   "property": "C59",
   "status": "proved",
   "theorems": [
    "Ramwich.Pipeline.C59_refines",
    "Ramwich.Pipeline.C59_recurrence",
    "Ramwich.Pipeline.C59_done",
    "Ramwich.Pipeline.C59_order_irrelevant",
    "Ramwich.Pipeline.C59_no_idle_time"
   ],
   "note": ""
  },
  {
   "property": "C60",
   "status": "proved",
   "theorems": [
    "Ramwich.Pipeline.C60_core_cycles",
    "Ramwich.Pipeline.C60_core_cycles_exact"
   ],
   "note": ""
  },
  {
   "property": "C61",
   "status": "proved",
   "theorems": [
    "Ramwich.C61_refines",
    "Ramwich.C61_pipelines",
    "Ramwich.C61_program_order",
    "Ramwich.C61_same_result",
    "Ramwich.C61_no_new_deadlock"
   ],
   "note": ""
  },
  {
   "property": "C62",
   "status": "proved",
   "theorems": [
    "Ramwich.C62_load",
    "Ramwich.C62_store",
    "Ramwich.C62_other",
    "Ramwich.C62_cycles"
   ],
   "note": ""
  },
  {
   "property": "C63",
   "status": "proved",
   "theorems": [
    "Ramwich.C63_times",
    "Ramwich.C63_waits"
   ],
   "note": ""
  },
  {
   "property": "C64",
   "status": "proved",
   "theorems": [
    "Ramwich.C64_response",
    "Ramwich.C64_idle"
   ],
   "note": ""
  },
  {
   "property": "C65",
   "status": "proved",
   "theorems": [
    "Ramwich.C65_in_turn",
    "Ramwich.C65_contention",
    "Ramwich.C65_bound",
    "Ramwich.C65_alone"
   ],
   "note": ""
  },
  {
   "property": "C66",
   "status": "proved",
   "theorems": [
    "Ramwich.C66_alone_op",
    "Ramwich.C66_contended_op",
    "Ramwich.C66_alone_cycles",
    "Ramwich.C66_contended_cycles"
   ],
   "note": ""
  },
  {
   "property": "C67",
   "status": "proved",
   "theorems": [
    "Ramwich.C67_accepted_iff",
    "Ramwich.C67_rejected",
    "Ramwich.C67_ignored",
    "Ramwich.C67_kept",
    "Ramwich.C67_rest",
    "Ramwich.C67_latencies",
    "Ramwich.C67_xbar_power"
   ],
   "note": ""
  },
  {
   "property": "C68",
   "status": "proved",
   "theorems": [
    "Ramwich.C68_network_iff",
    "Ramwich.C68_report_iff",
    "Ramwich.C68_supported",
    "Ramwich.C68_nonneg"
   ],
   "note": ""
  },
  {
   "property": "C69",
   "status": "proved",
   "theorems": [
    "Ramwich.C69_larger_costs_more"
   ],
   "note": ""
  },
  {
   "property": "C70",
   "status": "proved",
   "theorems": [
    "Ramwich.C70_refines",
    "Ramwich.C70_times",
    "Ramwich.C70_punctual",
    "Ramwich.C70_add",
    "Ramwich.C70_spacing",
    "Ramwich.C70_batch"
   ],
   "note": ""
  },
  {
   "property": "C71",
   "status": "proved",
   "theorems": [
    "Ramwich.C71_counts",
    "Ramwich.C71_busy",
    "Ramwich.C71_idle",
    "Ramwich.C71_not_in_flight"
   ],
   "note": ""
  },
  {
   "property": "C72",
   "status": "proved",
   "theorems": [
    "Ramwich.C72_stop_time",
    "Ramwich.C72_stops"
   ],
   "note": ""
  },
  {
   "property": "C73",
   "status": "proved",
   "theorems": [
    "Ramwich.C73_cores",
    "Ramwich.C73_routers"
   ],
   "note": ""
  },
  {
   "property": "C74",
   "status": "proved",
   "theorems": [
    "Ramwich.C74_in_turn",
    "Ramwich.C74_send",
    "Ramwich.C74_receive",
    "Ramwich.C74_halt",
    "Ramwich.C74_halt_again"
   ],
   "note": ""
  },
  {
   "property": "C75",
   "status": "proved",
   "theorems": [
    "Ramwich.C75_active",
    "Ramwich.C75_sum",
    "Ramwich.C75_covers",
    "Ramwich.C75_no_halt_witness"
   ],
   "note": ""
  },
  {
   "property": "C76",
   "status": "proved",
   "theorems": [
    "Ramwich.C76_latency"
   ],
   "note": ""
  },
  {
   "property": "C77",
   "status": "proved",
   "theorems": [
    "Ramwich.C77_rounding",
    "Ramwich.C77_float64_exact",
    "Ramwich.C77_float64_any_order",
    "Ramwich.C77_float64_product",
    "Ramwich.C77_offset_rounds_differently"
   ],
   "note": "conversion_errors and the analog cell contents are the only parts that differ; overflow/underflow of the exponent not modelled. C77_offset_rounds_differently shows that conductance_min = 0 is needed."
  },
  {
   "property": "C78",
   "status": "proved",
   "theorems": [
    "Ramwich.C78_only_skipped_reads",
    "Ramwich.C78_finishes",
    "Ramwich.C78_timing_decides"
   ],
   "note": "The other run must not raise (negative latencies raise). The claim without the condition on readers is refuted by C78_timing_decides."
  },
  {
   "property": "C79",
   "status": "proved",
   "theorems": [
    "Ramwich.C79_bounded",
    "Ramwich.C79_comes_to_rest"
   ],
   "note": ""
  },
  {
   "property": "C80",
   "status": "proved",
   "theorems": [
    "Ramwich.C80_never_raises",
    "Ramwich.C80_ends",
    "Ramwich.C80_one_run_is_enough",
    "Ramwich.C80_race_raises",
    "Ramwich.C80_late_error"
   ],
   "note": "singleAssignment and being at rest are hypotheses on one finished run; C80_race_raises and C80_late_error show that both are needed."
  },
  {
   "property": "C81",
   "status": "proved",
   "theorems": [
    "Ramwich.C81_bounded",
    "Ramwich.C81_time_passes",
    "Ramwich.C81_always_events",
    "Ramwich.C81_comes_to_rest",
    "Ramwich.C81_no_new_deadlock",
    "Ramwich.C81_deadlock_hangs",
    "Ramwich.C81_one_simulation_is_enough"
   ],
   "note": "idle actions are the passing of time, check_queue finding a non-empty queue, and rounds of _monitor_queues. (d) inherits the hypotheses of C78 and C80."
  },
  {
   "property": "C82",
   "status": "proved",
   "theorems": [
    "Ramwich.C82_time_bound",
    "Ramwich.C82_work_in_time",
    "Ramwich.C82_active_cycles",
    "Ramwich.C82_watchdog",
    "Ramwich.C82_done_in_time"
   ],
   "note": "T is Spec.programCycles. A crossed T with a tile process that has not returned is a proof of a deadlock (C82_watchdog)."
  },
  {
   "property": "C83",
   "status": "proved",
   "theorems": [
    "Ramwich.C83_dram",
    "Ramwich.C83_router",
    "Ramwich.C83_same_counters",
    "Ramwich.C83_report",
    "Ramwich.C83_report_times"
   ],
   "note": "The reports are those of Node.get_stats (I/O tiles 0 and 1 report only their routers, as in the code); the cycle counts of the two runs are parameters (RunTimes), as in C50."
  },
  {
   "property": "C84",
   "status": "proved",
   "theorems": [
    "Ramwich.C84_counters",
    "Ramwich.C84_report"
   ],
   "note": "Both runs are assumed to end without an error: data decide the DRAM addresses, so one of two programs that differ in their data only can crash or hang. The two counters that do depend on the data (ADC overflows and conversion errors) are left out of the comparison; neither is in a report."
  },
  {
   "property": "C85",
   "status": "proved",
   "theorems": [
    "Ramwich.C85_never_raises",
    "Ramwich.C85_ends",
    "Ramwich.C85_same_result",
    "Ramwich.C85_simulation",
    "Ramwich.C85_done_in_time"
   ],
   "note": "The order of the moves is part of the check (any order that works will do; for the examples it was found by a greedy search). The check is sufficient, not necessary: it does not follow DRAM addresses that are computed or loaded, and it rejects div, which raises for some data."
  },
  {
   "property": "C86",
   "status": "proved",
   "theorems": [
    "Ramwich.C86_loads",
    "Ramwich.C86_ends",
    "Ramwich.C86_same_result",
    "Ramwich.C86_simulation",
    "Ramwich.C86_mnist",
    "Ramwich.C86_mnist_result"
   ],
   "note": "The transcription of examples/mlp_l4_mnist/ops.json (Spec/Mnist.lean, 758 operations) was compared with the file by a script. That a skipped read really can end a run of the example (with other latencies or schedules) was observed with a simulation outside of Lean and is not proved; see DESIGN.md."
  },
  {
   "property": "C87",
   "status": "proved",
   "theorems": [
    "Ramwich.C87_equations",
    "Ramwich.C87_accepted"
   ],
   "note": "The addresses of loads and stores are those in the registers of the abstract core. Matching transfers: the rows sent from one tile to another are as many and as wide as the rows received."
  },
  {
   "property": "C88",
   "status": "proved",
   "theorems": [
    "Ramwich.C88_equations",
    "Ramwich.C88_weights"
   ],
   "note": "Ids of more than 4300 digits (which make the loader raise, C52_long_id) are excluded by shortIds; activations outside the 32-bit range are excluded by inRange."
  },
  {
   "property": "C89",
   "status": "proved",
   "theorems": [
    "Ramwich.C89_mnist",
    "Ramwich.C89_simulation"
   ],
   "note": "The products are those of the crossbar model with noise and ADC (mvmValue, C01-C05). The formula was found and checked by a symbolic evaluation whose soundness is proved (Lemmas/SymCore, SymNode)."
  },
  {
   "property": "C90",
   "status": "proved",
   "theorems": [
    "Ramwich.C90_session",
    "Ramwich.C90_any_runs",
    "Ramwich.C90_mnist",
    "Ramwich.C90_mnist_batch"
   ],
   "note": "Only runs that come to their ends: after a run that hangs (C32) the reset does not clear everything (C50). With SRAM crossbars counters survive a reset (C50_sram_counts_witness)."
  },
  {
   "property": "C91",
   "status": "proved",
   "theorems": [
    "Ramwich.C91_accuracy",
    "Ramwich.C91_rounded",
    "Ramwich.C91_class"
   ],
   "note": "Complete runs exist by C89_mnist. The condition that units are exact is sufficient, not necessary; the reference network keeps the saturation to 16 bits and the order of its sums. spot_class is a network, image and noise that meet all hypotheses."
  },
  {
   "property": "C92",
   "status": "proved",
   "theorems": [
    "Ramwich.C92_hangs",
    "Ramwich.C92_both",
    "Ramwich.C92_files",
    "Ramwich.C92_mnist"
   ],
   "note": "The run has all latencies 0 (an order of events that is possible with some latencies); which latencies of the whole simulation lead to it is not stated. Soundness of the check only: that no moves are found says nothing."
  },
  {
   "property": "C93",
   "status": "proved",
   "theorems": [
    "Ramwich.C93_invariant",
    "Ramwich.C93_unique",
    "Ramwich.C93_files",
    "Ramwich.C93_mnist",
    "Ramwich.C93_simulation"
   ],
   "note": "C93_invariant: any solution of the equations of C87 is what every reachable state holds in its valid words and finished cores; C93_unique: the equations determine every word that is ever valid; C93_files, C93_mnist, C93_simulation: the same from the files, for the MNIST example, and with clock and pipelines."
  },
  {
   "property": "C94",
   "status": "proved",
   "theorems": [
    "Ramwich.C94_no_skipped_read",
    "Ramwich.C94_finishes",
    "Ramwich.C94_done_in_time",
    "Ramwich.C94_result",
    "Ramwich.C94_one_reader",
    "Ramwich.C94_not_hanging",
    "Ramwich.C94_files"
   ],
   "note": "For programs that pass the check of C85 and whose writes have words for one process only; the MNIST example does not meet the condition (and can hang, C92)."
  },
  {
   "property": "C95",
   "status": "proved",
   "theorems": [
    "Ramwich.C95_core",
    "Ramwich.C95_dram",
    "Ramwich.C95_router",
    "Ramwich.C95_report",
    "Ramwich.C95_mnist"
   ],
   "note": "Hypotheses: Simulable configuration that builds, new cores except for loaded weights, lists of the right lengths (readyNode), and transfersFit: the Recvs name tiles of the node and the rows sent from one tile to another are as many and as wide as the rows received. Router counters: every tile program has a Halt (otherwise packets may be in flight when the run ends). Active cycles are the times of the run and stay a parameter."
  },
  {
   "property": "C96",
   "status": "proved",
   "theorems": [
    "Ramwich.C96_alone",
    "Ramwich.C96_left",
    "Ramwich.C96_end_time",
    "Ramwich.C96_always_events",
    "Ramwich.C96_time_passes",
    "Ramwich.C96_raised",
    "Ramwich.C96_watchdog",
    "Ramwich.C96_together",
    "Ramwich.C96_one_raises",
    "Ramwich.C96_returns"
   ],
   "note": "Hypothesis: the controllers of every node start as they are built (SysInit.ok). C96_returns additionally assumes of every node alone that it never raises and returns once the clock has passed the sum of the times of its operations; C82, C85 and C94 give conditions for that. Events of the moment in which the last node returns may or may not be processed before env.run returns; both are runs of the model."
  },
  {
   "property": "C97",
   "status": "proved",
   "theorems": [
    "Ramwich.C97_complete",
    "Ramwich.C97_objects",
    "Ramwich.C97_report",
    "Ramwich.C97_cycles",
    "Ramwich.C97_starts",
    "Ramwich.C97_never_raises",
    "Ramwich.C97_in_time",
    "Ramwich.C97_returns",
    "Ramwich.C97_result",
    "Ramwich.C97_mnist"
   ],
   "note": "RRAM crossbars only (the configuration sessions of C90 need for reset). Every tile program has a halt. C97_report needs the transfers to be paired with sources that exist (files_fit gives this from the files). C97_mnist says what a returning call leaves; that a call on the MNIST files returns is not claimed (C92 shows that it can hang), and C97_returns does not apply to them."
  },
  {
   "property": "C98",
   "status": "proved",
   "theorems": [
    "Ramwich.C98_core",
    "Ramwich.C98_tile",
    "Ramwich.C98_dram",
    "Ramwich.C98_run",
    "Ramwich.C98_cycles",
    "Ramwich.C98_mnist"
   ],
   "note": "Bounds per unit; waiting for data from other units is not counted, so the bound is not attained in general. The bound of the DRAM is on the time of the simulation, not on active_cycles of its tile. C98_run, C98_cycles: RRAM crossbars only, transfers paired, every tile program has a halt (as C97)."
  },
  {
   "property": "C99",
   "status": "proved",
   "theorems": [
    "Ramwich.C99_reportable",
    "Ramwich.C99_longer",
    "Ramwich.C99_times",
    "Ramwich.C99_report",
    "Ramwich.C99_between",
    "Ramwich.C99_mnist"
   ],
   "note": "C99_report, C99_between: RRAM crossbars only, transfers paired, every tile program has a halt (as C97, C98). C99_mnist takes 14/5 for math.sqrt(8); only areas depend on it, and the theorem is about energies. That a MNIST run returns is a hypothesis (C92)."
  },
  {
   "property": "C100",
   "status": "proved",
   "theorems": [
    "Ramwich.C100_run",
    "Ramwich.C100_returns",
    "Ramwich.C100_mnist"
   ],
   "note": "The schedule of the MNIST example (23417 events) is evaluated by the kernel in ten parts (Lemmas/MnistClock.lean). The model lets simultaneous events happen in any order, simpy in one of them; the theorem says that the run exists in the model, not that simpy chooses it."
  },
  {
   "property": "C101",
   "status": "proved",
   "theorems": [
    "Ramwich.C101_never_waits",
    "Ramwich.C101_zeros",
    "Ramwich.C101_first_tile",
    "Ramwich.C101_race",
    "Ramwich.C101_mnist"
   ],
   "note": "C101_race is about the node without the clock (any order of events)."
  },
  {
   "property": "C102",
   "status": "proved",
   "theorems": [
    "Ramwich.C102_never_halted",
    "Ramwich.C102_never_returns",
    "Ramwich.C102_hangs",
    "Ramwich.C102_files",
    "Ramwich.C102_test_tile_features"
   ],
   "note": ""
  },
  {
   "property": "C103",
   "status": "proved",
   "theorems": [
    "Ramwich.C103_returns",
    "Ramwich.C103_result",
    "Ramwich.C103_assertion"
   ],
   "note": ""
  },
  {
   "property": "C104",
   "status": "proved",
   "theorems": [
    "Ramwich.C104_shares",
    "Ramwich.C104_idle",
    "Ramwich.C104_class",
    "Ramwich.C104_worker",
    "Ramwich.C104_accuracy",
    "Ramwich.C104_same",
    "Ramwich.C104_possible",
    "Ramwich.C104_reference"
   ],
   "note": ""
  },
  {
   "property": "C105",
   "status": "proved",
   "theorems": [
    "Ramwich.C105_ends",
    "Ramwich.C105_result",
    "Ramwich.C105_assertion"
   ],
   "note": ""
  },
  {
   "property": "C106",
   "status": "proved",
   "theorems": [
    "Ramwich.C106_parity",
    "Ramwich.C106_passes",
    "Ramwich.C106_even",
    "Ramwich.C106_ones"
   ],
   "note": ""
  },
  {
   "property": "C107",
   "status": "proved",
   "theorems": [
    "Ramwich.C107_outcome",
    "Ramwich.C107_report",
    "Ramwich.C107_summary",
    "Ramwich.C107_printed",
    "Ramwich.C107_rounding_witness"
   ],
   "note": ""
  },
  {
   "property": "C108",
   "status": "proved",
   "theorems": [
    "Ramwich.C108_numbers",
    "Ramwich.C108_text",
    "Ramwich.C108_printed",
    "Ramwich.C108_prints",
    "Ramwich.C108_mnist"
   ],
   "note": ""
  },
  {
   "property": "C109",
   "status": "proved",
   "theorems": [
    "Ramwich.C109_finishes",
    "Ramwich.C109_returns",
    "Ramwich.C109_events",
    "Ramwich.C109_delays",
    "Ramwich.C109_write_request",
    "Ramwich.C109_read_valid",
    "Ramwich.C109_read_waits",
    "Ramwich.C109_order",
    "Ramwich.C109_partial_write",
    "Ramwich.C109_two_readers_witness"
   ],
   "note": ""
  },
  {
   "property": "C110",
   "status": "proved",
   "theorems": [
    "Ramwich.C110_returns",
    "Ramwich.C110_floor",
    "Ramwich.C110_rounded",
    "Ramwich.C110_error",
    "Ramwich.C110_exact",
    "Ramwich.C110_small",
    "Ramwich.C110_saturated"
   ],
   "note": ""
  },
  {
   "property": "C111",
   "status": "proved",
   "theorems": [
    "Ramwich.C111_cells",
    "Ramwich.C111_operations",
    "Ramwich.C111_operation",
    "Ramwich.C111_assertion"
   ],
   "note": ""
  },
  {
   "property": "C112",
   "status": "proved",
   "theorems": [
    "Ramwich.C112_defaults",
    "Ramwich.C112_given",
    "Ramwich.C112_numbers",
    "Ramwich.C112_report",
    "Ramwich.C112_returns",
    "Ramwich.C112_printed",
    "Ramwich.C112_config",
    "Ramwich.C112_rounding_witness"
   ],
   "note": ""
  },
  {
   "property": "C113",
   "status": "proved",
   "theorems": [
    "Ramwich.C113_report",
    "Ramwich.C113_chart",
    "Ramwich.C113_types",
    "Ramwich.C113_lines",
    "Ramwich.C113_overall",
    "Ramwich.C113_insufficient",
    "Ramwich.C113_no_list"
   ],
   "note": ""
  },
  {
   "property": "C114",
   "status": "proved",
   "theorems": [
    "Ramwich.C114_progress",
    "Ramwich.C114_accuracy",
    "Ramwich.C114_notes",
    "Ramwich.C114_idle",
    "Ramwich.C114_mnist",
    "Ramwich.C114_failure_witness"
   ],
   "note": ""
  },
  {
   "property": "C115",
   "status": "proved",
   "theorems": [
    "Ramwich.C115_prints",
    "Ramwich.C115_ends",
    "Ramwich.C115_reference"
   ],
   "note": ""
  }
 ]
}