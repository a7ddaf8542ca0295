{
 "claims": [
  {
   "property": "C01",
   "status": "proved",
   "theorems": [
    "Verif.Time.C01_add_exact",
    "Verif.Time.C01_subtract_exact",
    "Verif.Time.C01_negate_exact",
    "Verif.Time.C01_add_subtract_cancel"
   ],
   "note": ""
  },
  {
   "property": "C02",
   "status": "proved",
   "theorems": [
    "Verif.Time.C02_cmp_sign",
    "Verif.Time.C02_cmp_eq_zero",
    "Verif.Time.C02_cmp_antisymm",
    "Verif.Time.C02_cmp_trans",
    "Verif.Time.C02_isGe_iff_cmp"
   ],
   "note": ""
  },
  {
   "property": "C03",
   "status": "partial",
   "theorems": [
    "Verif.Time.C03_violated",
    "Verif.Time.C03_from_ns_partial"
   ],
   "note": "The code violates the statement for |ns| >= 2^31; the partial theorem covers exactly the remaining range."
  },
  {
   "property": "C04",
   "status": "partial",
   "theorems": [
    "Verif.Time.C04_from_ns16_exact",
    "Verif.Time.C04_from_ns16_min",
    "Verif.Time.C04_ns16_roundtrip",
    "Verif.Time.C04_saturation_violated",
    "Verif.Time.C04_saturation_partial",
    "Verif.Time.C04_saturation_neg_partial"
   ],
   "note": "Round trip proved in full; the saturation clause is violated by the code between 140737.49 s and 281474 s."
  },
  {
   "property": "C05",
   "status": "proved",
   "theorems": [
    "Verif.Time.C05_wire_roundtrip",
    "Verif.Time.C05_refuses_negative",
    "Verif.Time.C05_std_floor_roundtrip",
    "Verif.Time.C05_to_std_nearest_denormal"
   ],
   "note": ""
  },
  {
   "property": "C33",
   "status": "proved",
   "theorems": [
    "Verif.Tsd.C33_results_match_history",
    "Verif.Tsd.C33_symmetric_e2e",
    "Verif.Tsd.C33_symmetric_p2p"
   ],
   "note": "Over the rationals (floating-point rounding not modelled)."
  },
  {
   "property": "C34",
   "status": "proved",
   "theorems": [
    "Verif.Tsd.C34_available_iff",
    "Verif.Tsd.C34_clear_makes_unavailable",
    "Verif.Tsd.C34_never_mixed",
    "Verif.Tsd.C34_setter_result"
   ],
   "note": ""
  },
  {
   "property": "C06",
   "status": "partial",
   "theorems": [
    "Verif.Bic.C06_violated",
    "Verif.Bic.C06_choose_best_partial",
    "Verif.Bic.C06_order_independent_partial",
    "Verif.Bic.C06_array_order_independent_partial"
   ],
   "note": "False of the code when candidates mix NaN and numeric Allan variances (cycle); proved otherwise."
  },
  {
   "property": "C07",
   "status": "partial",
   "theorems": [
    "Verif.Bic.C07_select_iff_beats",
    "Verif.Bic.C07_select_symmetric",
    "Verif.Bic.C07_transitivity_violated",
    "Verif.Bic.C07_transitive_partial",
    "Verif.Bic.C07_select_instance_unique"
   ],
   "note": "Totality and antisymmetry proved in full; transitivity is violated by NaN Allan variances, proved otherwise."
  },
  {
   "property": "C08",
   "status": "partial",
   "theorems": [
    "Verif.Bmc.C08_mirror_violated",
    "Verif.Bmc.C08_mirror_partial",
    "Verif.Bmc.C08_ranking_partial",
    "Verif.Bmc.C08_order_violated",
    "Verif.Bmc.C08_best_partial",
    "Verif.Bmc.C08_order_partial"
   ],
   "note": "False of the code when two masters announce one grandmaster with step counts differing by exactly one (both orders say 'first is better', election depends on hearing order); proved as a lexicographic order otherwise."
  },
  {
   "property": "C09",
   "status": "proved",
   "theorems": [
    "Verif.Bmc.C09_recommendation",
    "Verif.Bmc.C09_never_master",
    "Verif.Bmc.C09_tick_not_master"
   ],
   "note": ""
  },
  {
   "property": "C10",
   "status": "partial",
   "theorems": [
    "Verif.Bmc.C10_ring",
    "Verif.Bmc.C10_violated",
    "Verif.Bmc.C10_elected_partial"
   ],
   "note": "False of the code when a master's announces leave the window between the two clock readings of one election; proved for one reading."
  },
  {
   "property": "C11",
   "status": "partial",
   "theorems": [
    "Verif.Bmc.C11_capacity_partial",
    "Verif.Bmc.C11_expiry_partial",
    "Verif.Bmc.C11_expiry_overrun",
    "Verif.Bmc.C11_memory_violated",
    "Verif.Bmc.C11_nodup_violated",
    "Verif.Bmc.C11_update_partial"
   ],
   "note": "Capacity and exact expiry hold for all histories that stay inside the array; memory safety and uniqueness are false of the code (full table, expiry of the selected master) and proved for the remaining histories."
  },
  {
   "property": "C51",
   "status": "proved",
   "theorems": [
    "Verif.Acl.C51_access_decision"
   ],
   "note": ""
  },
  {
   "property": "C52",
   "status": "partial",
   "theorems": [
    "Verif.Acl.C52_entry_violated",
    "Verif.Acl.C52_entry_partial",
    "Verif.Acl.C52_terminates_partial"
   ],
   "note": "False of the code for dotted masks whose last bit is set, e.g. 255.255.255.255 (shift by 32 in the counting loop, endless on x86); proved for all other forms."
  },
  {
   "property": "C53",
   "status": "proved",
   "theorems": [
    "Verif.Acl.C53_checks_consistent",
    "Verif.Acl.C53_mask_all",
    "Verif.Acl.C53_gate"
   ],
   "note": ""
  },
  {
   "property": "C20",
   "status": "proved",
   "theorems": [
    "Verif.Stats.C20_range_statistics_exact"
   ],
   "note": "Over the rationals, values below 1e100 in magnitude."
  },
  {
   "property": "C21",
   "status": "partial",
   "theorems": [
    "Verif.Stats.C21_count_statistics_violated",
    "Verif.Stats.C21_count_statistics_partial"
   ],
   "note": "The sample count argument is ignored by the code (statement violated); total exact, count is the number of updates."
  },
  {
   "property": "C22",
   "status": "proved",
   "theorems": [
    "Verif.Stats.C22_std_dev_exact"
   ],
   "note": "Over the rationals; the square root itself is not modelled."
  },
  {
   "property": "C23",
   "status": "proved",
   "theorems": [
    "Verif.Stats.C23_convergence_exact"
   ],
   "note": ""
  },
  {
   "property": "C24",
   "status": "proved",
   "theorems": [
    "Verif.Stats.C24_collection_type_checks"
   ],
   "note": ""
  },
  {
   "property": "C59",
   "status": "proved",
   "theorems": [
    "Verif.Stats.C59_intervals_match_entries"
   ],
   "note": ""
  },
  {
   "property": "C12",
   "status": "proved",
   "theorems": [
    "Verif.Filter.C12_fir_mean_of_recent",
    "Verif.Filter.C12_zero_stiffness_undefined"
   ],
   "note": "Over the rationals, for stiffness 1 to 128; stiffness 0 is accepted by the code and gives 0/0 (second theorem)."
  },
  {
   "property": "C13",
   "status": "proved",
   "theorems": [
    "Verif.Filter.C13_smallest_filter"
   ],
   "note": "For samples in the order of the monotonic clock."
  },
  {
   "property": "C14",
   "status": "proved",
   "theorems": [
    "Verif.Filter.C14_notch_band"
   ],
   "note": "Over the rationals."
  },
  {
   "property": "C15",
   "status": "proved",
   "theorems": [
    "Verif.Filter.C15_integral_bounded",
    "Verif.Filter.C15_output",
    "Verif.Filter.C15_integral_step",
    "Verif.Filter.C15_interval_bounded",
    "Verif.Filter.C15_step_limited"
   ],
   "note": "Over the rationals."
  },
  {
   "property": "C58",
   "status": "proved",
   "theorems": [
    "Verif.Filter.C58_peirce_refines_definition",
    "Verif.Filter.C58_outlier_pulled_in"
   ],
   "note": "Over the rationals; the comparison with the standard deviation is made on squares."
  },
  {
   "property": "C60",
   "status": "partial",
   "theorems": [
    "Verif.Filter.C60_threshold_violated",
    "Verif.Filter.C60_threshold_partial"
   ],
   "note": "False of the code: the criterion is truncated to an int before it is reported; proved that the report is below the applied threshold by less than one standard deviation."
  },
  {
   "property": "C16",
   "status": "proved",
   "theorems": [
    "Verif.Misc.C16_bounded_copy",
    "Verif.Misc.C16_zero_size"
   ],
   "note": "For sizes above zero; the size zero is out of bounds (second theorem)."
  },
  {
   "property": "C17",
   "status": "proved",
   "theorems": [
    "Verif.Misc.C17_finite_map",
    "Verif.Misc.C17_map_invariant"
   ],
   "note": ""
  },
  {
   "property": "C56",
   "status": "partial",
   "theorems": [
    "Verif.Misc.C56_format_violated",
    "Verif.Misc.C56_overrun",
    "Verif.Misc.C56_every_format",
    "Verif.Misc.C56_format_partial"
   ],
   "note": "False of the code: longer texts abort instead of being truncated, or overrun the buffer; a final specifier without its option reads past the format; a writer error is forgotten after a later success. Proved for texts that fit."
  },
  {
   "property": "C18",
   "status": "proved",
   "theorems": [
    "Verif.Db.C18_linked_list",
    "Verif.Db.C18_array",
    "Verif.Db.C18_selection"
   ],
   "note": "Array tables with records of at most 4096 bytes; references must be live, as the code requires."
  },
  {
   "property": "C19",
   "status": "proved",
   "theorems": [
    "Verif.Db.C19_slots_not_shared",
    "Verif.Db.C19_zero_capacity"
   ],
   "note": "For non-zero initial capacity; with capacity zero the first insertion fails (second theorem)."
  },
  {
   "property": "C27",
   "status": "proved",
   "theorems": [
    "Verif.Config.C27_round_trip",
    "Verif.Config.C27_any_words",
    "Verif.Config.C27_within_bounds",
    "Verif.Config.C27_leading_blank"
   ],
   "note": "Words quoted, or escaped where they do not begin with a blank; an escaped blank does not begin a word (last theorem)."
  },
  {
   "property": "C28",
   "status": "proved",
   "theorems": [
    "Verif.Config.C28_arity_enforced"
   ],
   "note": ""
  },
  {
   "property": "C61",
   "status": "partial",
   "theorems": [
    "Verif.Config.C61_accepted_iff",
    "Verif.Config.C61_answered_violated",
    "Verif.Config.C61_answered_partial"
   ],
   "note": "Acceptance proved exactly; not every file is answered: one with no section header and no option dereferences a null section."
  },
  {
   "property": "C29",
   "status": "partial",
   "theorems": [
    "Verif.Thread.C29_exactly_one_place",
    "Verif.Thread.C29_alloc_fresh",
    "Verif.Thread.C29_alloc_possible",
    "Verif.Thread.C29_counter_partial",
    "Verif.Thread.C29_counter_violated"
   ],
   "note": "Single ownership and freshness of allocations hold in all histories; the counter of free messages is short by the number of failed sends (witness and exact relation proved). Writes to the free queue are assumed to succeed."
  },
  {
   "property": "C30",
   "status": "proved",
   "theorems": [
    "Verif.Thread.C30_answered_once",
    "Verif.Thread.C30_answer_goes_to_named",
    "Verif.Thread.C30_unanswered_freed",
    "Verif.Thread.C30_wait_returns_own",
    "Verif.Thread.C30_waited_in_order",
    "Verif.Thread.C30_never_lost"
   ],
   "note": "All histories of the system of threads, with any failures of writes to thread queues."
  },
  {
   "property": "C31",
   "status": "proved",
   "theorems": [
    "Verif.Thread.C31_fifo",
    "Verif.Thread.C31_receive_oldest"
   ],
   "note": "A queue is a list of messages: atomicity of pipe writes of a pointer is assumed."
  },
  {
   "property": "C32",
   "status": "proved",
   "theorems": [
    "Verif.Thread.C32_delivers",
    "Verif.Thread.C32_one_copy_each",
    "Verif.Thread.C32_no_messages",
    "Verif.Thread.C32_no_group",
    "Verif.Thread.C32_join",
    "Verif.Thread.C32_leave",
    "Verif.Thread.C32_groups_follow_members",
    "Verif.Thread.C32_group_iff_member"
   ],
   "note": "Events are posted even if the call then fails for want of messages. Concurrent changes of membership during a send are not modelled."
  },
  {
   "property": "C25",
   "status": "partial",
   "theorems": [
    "Verif.Feed.C25_one_sample_partial",
    "Verif.Feed.C25_one_sample_violated",
    "Verif.Feed.C25_max_age",
    "Verif.Feed.C25_nothing_invented",
    "Verif.Feed.C25_fresh",
    "Verif.Feed.C25_age_in_history",
    "Verif.Feed.C25_age_diff_partial",
    "Verif.Feed.C25_age_diff_defeated",
    "Verif.Feed.C25_age_diff_violated",
    "Verif.Feed.C25_difference"
   ],
   "note": "Age limit and freshness hold for all histories. The age difference limit holds only if the second sample is not the older one (witness and exact condition), and the times, not the difference, may be torn by a lap of the ring after the second look at the counter (witness)."
  },
  {
   "property": "C26",
   "status": "proved",
   "theorems": [
    "Verif.Feed.C26_no_fault",
    "Verif.Feed.C26_subscription_valid",
    "Verif.Feed.C26_released_only_when_unused",
    "Verif.Feed.C26_released_when_unused",
    "Verif.Feed.C26_shutdown_partial",
    "Verif.Feed.C26_shutdown_violated"
   ],
   "note": "All histories of additions, removals, subscriptions and unsubscriptions. Shutdown, outside the statement, reads a freed source (witness)."
  },
  {
   "property": "C35",
   "status": "partial",
   "theorems": [
    "Verif.Servo.C35_partial",
    "Verif.Servo.C35_violated",
    "Verif.Servo.C35_read_only",
    "Verif.Servo.C35_steps"
   ],
   "note": "The slave is stepped only, and always, as the policy permits, in all histories, except when the epoch guard set to correct clocks sets a clock whatever the policy (witness)."
  },
  {
   "property": "C36",
   "status": "proved",
   "theorems": [
    "Verif.Servo.C36_clock_limits",
    "Verif.Servo.C36_reported_limits",
    "Verif.Servo.C36_servo_limits",
    "Verif.Servo.C36_saved_within",
    "Verif.Servo.C36_saved_synchronized"
   ],
   "note": "Rational arithmetic for long double; rounding to the kernel's units is part of the statement."
  },
  {
   "property": "C37",
   "status": "partial",
   "theorems": [
    "Verif.Servo.C37_alarm_exact",
    "Verif.Servo.C37_partial",
    "Verif.Servo.C37_reachable",
    "Verif.Servo.C37_what_fails",
    "Verif.Servo.C37_violated"
   ],
   "note": "The alarm is exact in all histories. A run whose frequency the kernel refuses may report the slave as synchronised while alarmed (witness); proved to be the only way."
  },
  {
   "property": "C38",
   "status": "partial",
   "theorems": [
    "Verif.Servo.C38_partial",
    "Verif.Servo.C38_kept",
    "Verif.Servo.C38_violated"
   ],
   "note": "Exact for all guards; configured to alarm only, a master near the epoch raises no alarm unless the slave is near it too (witness)."
  },
  {
   "property": "C62",
   "status": "partial",
   "theorems": [
    "Verif.Servo.C62_partial",
    "Verif.Servo.C62_odd",
    "Verif.Servo.C62_violated"
   ],
   "note": "Exact up to the kernel's frequency limit; beyond it up to half a tick's effect is lost (witness and bound)."
  },
  {
   "property": "C39",
   "status": "proved",
   "theorems": [
    "Verif.Lacp.C39_invariant",
    "Verif.Lacp.C39_entries_current",
    "Verif.Lacp.C39_learns",
    "Verif.Lacp.C39_choice"
   ],
   "note": "All histories of observations and clearings; also that the socket chosen for an interface is one last seen on it."
  },
  {
   "property": "C40",
   "status": "partial",
   "theorems": [
    "Verif.Lacp.C40_partial",
    "Verif.Lacp.C40_violated",
    "Verif.Lacp.C40_ends"
   ],
   "note": "Exact description for all masks: bits above 31 are skipped or the shift is undefined (witness)."
  },
  {
   "property": "C63",
   "status": "partial",
   "theorems": [
    "Verif.Lacp.C63_partial",
    "Verif.Lacp.C63_invalidate",
    "Verif.Lacp.C63_violated",
    "Verif.Lacp.C63_undefined"
   ],
   "note": "Exact for up to 31 sockets; with 32 (eight interfaces) all 64 become valid, with more creation is undefined (witnesses)."
  },
  {
   "property": "C55",
   "status": "proved",
   "theorems": [
    "Verif.Monitor.C55_merged"
   ],
   "note": "All rounds of reports on the array store, for all capacities and contents of fresh memory; exact output, order and numbers."
  },
  {
   "property": "C64",
   "status": "partial",
   "theorems": [
    "Verif.Monitor.C64_logs_partial",
    "Verif.Monitor.C64_json_violated",
    "Verif.Monitor.C64_json_partial"
   ],
   "note": "Logs, latest states and nodes proved for all histories; the JSON line for a state always gives the zero identity as grandmaster (witness)."
  },
  {
   "property": "C41",
   "status": "partial",
   "theorems": [
    "Verif.Codec.C41_table",
    "Verif.Codec.C41_reencode",
    "Verif.Codec.C41_header_partial",
    "Verif.Codec.C41_update",
    "Verif.Codec.C41_violated"
   ],
   "note": "The table-driven codec is lossless both ways, as is msgUnpackHeader but for messageTypeSpecific, whose bytes it does not swap (witness)."
  },
  {
   "property": "C42",
   "status": "proved",
   "theorems": [
    "Verif.Codec.C42_sync",
    "Verif.Codec.C42_announce",
    "Verif.Codec.C42_followUp",
    "Verif.Codec.C42_delayReq",
    "Verif.Codec.C42_delayResp",
    "Verif.Codec.C42_pdelayReq",
    "Verif.Codec.C42_pdelayResp",
    "Verif.Codec.C42_pdelayRespFollowUp",
    "Verif.Codec.C42_negative"
   ],
   "note": "All eight messages, all field values; times of 48-bit seconds; corrections within 64 bits."
  },
  {
   "property": "C43",
   "status": "partial",
   "theorems": [
    "Verif.Codec.C43_messages",
    "Verif.Codec.C43_tlvHeaders",
    "Verif.Codec.C43_tables_partial",
    "Verif.Codec.C43_slaveTLVs",
    "Verif.Codec.C43_violated",
    "Verif.Codec.C43_abort_violated"
   ],
   "note": "Decoders read within the length and fail when truncated, except at lengths that end just before an upper nibble's row, where one byte more is read, and short slave event TLVs abort (witnesses)."
  },
  {
   "property": "C44",
   "status": "partial",
   "theorems": [
    "Verif.Codec.C44_messages_partial",
    "Verif.Codec.C44_tables_partial",
    "Verif.Codec.C44_append",
    "Verif.Codec.C44_violated",
    "Verif.Codec.C44_header_violated"
   ],
   "note": "Encoders stay within the space, except msgPackPDelayReq (writes 54 bytes after checking for 44) and the header's encoder given 0 or 1 bytes (witnesses)."
  },
  {
   "property": "C57",
   "status": "partial",
   "theorems": [
    "Verif.Codec.C57_rxTiming",
    "Verif.Codec.C57_rxComputed",
    "Verif.Codec.C57_status",
    "Verif.Codec.C57_tx_partial",
    "Verif.Codec.C57_tx_violated"
   ],
   "note": "Any number of elements that fit, with the framing; the first reserved field of the transmit timestamps is lost (witness)."
  },
  {
   "property": "C45",
   "status": "partial",
   "theorems": [
    "Verif.Dispatch.C45_partial",
    "Verif.Dispatch.C45_permitted",
    "Verif.Dispatch.C45_violated"
   ],
   "note": "Proved, with the calls of both passes, when only the last TLV is an organisation's; after one the next six bytes are skipped (witness)."
  },
  {
   "property": "C46",
   "status": "partial",
   "theorems": [
    "Verif.Dispatch.C46_terminates",
    "Verif.Dispatch.C46_local",
    "Verif.Dispatch.C46_table",
    "Verif.Dispatch.C46_bounds_partial",
    "Verif.Dispatch.C46_violated"
   ],
   "note": "Ends, reads only the message, and hands over TLVs in the message, except an organisation's with a length under six, whose length wraps (witness)."
  },
  {
   "property": "C66",
   "status": "proved",
   "theorems": [
    "Verif.Dispatch.C66_delivery",
    "Verif.Dispatch.C66_no_assertion"
   ],
   "note": "Exact condition for a datagram to reach a port, for all bytes, ports and access control decisions."
  },
  {
   "property": "C47",
   "status": "partial",
   "theorems": [
    "Verif.Management.C47_dangling",
    "Verif.Management.C47_partial",
    "Verif.Management.C47_violated",
    "Verif.Management.C47_memory_violated",
    "Verif.Management.C47_data_violated",
    "Verif.Management.C47_text_violated",
    "Verif.Management.C47_leak_violated",
    "Verif.Management.C47_status_violated"
   ],
   "note": "Exact condition for the dangling pointer; complete messages cause no faults and leave nothing allocated; witnesses for a double free (also with management disabled), a copy from a null pointer and a leak."
  },
  {
   "property": "C54",
   "status": "proved",
   "theorems": [
    "Verif.Management.C54_addressed",
    "Verif.Management.C54_enabled",
    "Verif.Management.C54_refused",
    "Verif.Management.C54_history"
   ],
   "note": "All messages and options; any number of messages."
  },
  {
   "property": "C67",
   "status": "partial",
   "theorems": [
    "Verif.Management.C67_set_partial",
    "Verif.Management.C67_slave",
    "Verif.Management.C67_get",
    "Verif.Management.C67_command",
    "Verif.Management.C67_user",
    "Verif.Management.C67_frame",
    "Verif.Management.C67_read_back",
    "Verif.Management.C67_violated"
   ],
   "note": "All attributes, commands, the description, answers and histories; SLAVE_ONLY is decoded from four bytes, three of them not its own (witness)."
  },
  {
   "property": "C71",
   "status": "partial",
   "theorems": [
    "Verif.Dispatch.C71_partial",
    "Verif.Dispatch.C71_violated"
   ],
   "note": "Any amount of zeros that does not leave a single octet; for one octet the outcome depends on uninitialised memory (witness)."
  },
  {
   "property": "C48",
   "status": "partial",
   "theorems": [
    "Verif.Slave.C48_partial",
    "Verif.Slave.C48_same_parent",
    "Verif.Slave.C48_once",
    "Verif.Slave.C48_violated"
   ],
   "note": "All histories of the port; the Sync is from the parent of its time and the Follow_Up from the parent of the measurement, which may differ when the parent changes while the port stays a slave (witness). At most one measurement for each Sync."
  },
  {
   "property": "C49",
   "status": "partial",
   "theorems": [
    "Verif.Slave.C49_partial",
    "Verif.Slave.C49_violated"
   ],
   "note": "Only the correction of the Follow_Up is used (witness); the sum is right when that of the Sync is 0."
  },
  {
   "property": "C50",
   "status": "partial",
   "theorems": [
    "Verif.Slave.C50_matched",
    "Verif.Slave.C50_once",
    "Verif.Slave.C50_order_partial",
    "Verif.Slave.C50_order_violated"
   ],
   "note": "All histories: what is measured is matched, and once. Completeness in both orders, except when another slave's response comes between the response and the timestamp (witness)."
  },
  {
   "property": "C68",
   "status": "partial",
   "theorems": [
    "Verif.Slave.C68_partial",
    "Verif.Slave.C68_violated"
   ],
   "note": "Receive times are in C48; transmit times found by looping back are moved twice (witness)."
  },
  {
   "property": "C69",
   "status": "partial",
   "theorems": [
    "Verif.Slave.C69_partial",
    "Verif.Slave.C69_violated",
    "Verif.Slave.C69_waiting"
   ],
   "note": "Both orders, any messages in between; an early Follow_Up is lost if its number is 0 or while an earlier Sync waits (witnesses)."
  },
  {
   "property": "C70",
   "status": "partial",
   "theorems": [
    "Verif.Slave.C70_partial",
    "Verif.Slave.C70_violated"
   ],
   "note": "All histories in which the mechanism stays end-to-end; if changed to it after the first Sync no request is ever sent (witness)."
  },
  {
   "property": "C65",
   "status": "partial",
   "theorems": [
    "Verif.Evtmon.C65_timing",
    "Verif.Evtmon.C65_computed",
    "Verif.Evtmon.C65_tx",
    "Verif.Evtmon.C65_partial",
    "Verif.Evtmon.C65_violated",
    "Verif.Evtmon.C65_skip_violated",
    "Verif.Evtmon.C65_tx_violated"
   ],
   "note": "Exact description for all histories: right unless the parent changes within a batch, when a record of the old parent is sent as the new one's (witness). Intervals above 32767 are cut (witness); with the peer mechanism records of requests and responses overwrite each other (witness)."
  },
  {
   "property": "C72",
   "status": "partial",
   "theorems": [
    "Verif.Evtmon.C72_partial",
    "Verif.Evtmon.C72_violated"
   ],
   "note": "Flags and nine alarms exactly; the others are missing in the JSON line though not in the table (witness)."
  },
  {
   "property": "C73",
   "status": "proved",
   "theorems": [
    "Verif.TxCache.C73_belongs"
   ],
   "note": "All histories, ports and types of message; no bound on the sequence number of requests, and no assumption on the wrapping of tickets."
  },
  {
   "property": "C74",
   "status": "partial",
   "theorems": [
    "Verif.TxCache.C74_used_partial",
    "Verif.TxCache.C74_violated"
   ],
   "note": "Proved while no message sent since finds the cache full; with the cache full each message displaces the one before instead of the oldest (witness)."
  },
  {
   "property": "C75",
   "status": "partial",
   "theorems": [
    "Verif.TxCache.C75_alarm_partial",
    "Verif.TxCache.C75_violated"
   ],
   "note": "Exact description of the alarm for all histories; a check never raises it and always clears it (witness)."
  },
  {
   "property": "C76",
   "status": "proved",
   "theorems": [
    "Verif.TxCache.C76_accounts",
    "Verif.TxCache.C76_start",
    "Verif.TxCache.C76_class"
   ],
   "note": "All histories; the bounds of classes under a second are exact in the model, rounded by floating point in the code."
  },
  {
   "property": "C77",
   "status": "partial",
   "theorems": [
    "Verif.TxCache.C77_full_partial",
    "Verif.TxCache.C77_loop_partial",
    "Verif.TxCache.C77_violated",
    "Verif.TxCache.C77_full_violated",
    "Verif.TxCache.C77_loop_violated"
   ],
   "note": "When each fault can occur, over all histories; witnesses of both."
  },
  {
   "property": "C78",
   "status": "partial",
   "theorems": [
    "Verif.Timer.C78_exact",
    "Verif.Timer.C78_timely",
    "Verif.Timer.C78_ticks_exists",
    "Verif.Timer.C78_stop_partial",
    "Verif.Timer.C78_stop_violated"
   ],
   "note": "Exact for all operations; an expiry before the stop is still reported after it, once (witness)."
  },
  {
   "property": "C79",
   "status": "proved",
   "theorems": [
    "Verif.Leap.C79_cause",
    "Verif.Leap.C79_once",
    "Verif.Leap.C79_applied",
    "Verif.Leap.C79_test"
   ],
   "note": ""
  },
  {
   "property": "C80",
   "status": "partial",
   "theorems": [
    "Verif.Leap.C80_resumed_partial",
    "Verif.Leap.C80_after_partial",
    "Verif.Leap.C80_resumed_violated"
   ],
   "note": "If the timer cannot be restarted the engine goes idle with the instances suspended, and a cancellation does not resume them (witness); proved while the timer can be started."
  },
  {
   "property": "C81",
   "status": "partial",
   "theorems": [
    "Verif.Leap.C81_forward_partial",
    "Verif.Leap.C81_agree_partial",
    "Verif.Leap.C81_never",
    "Verif.Leap.C81_forward_violated",
    "Verif.Leap.C81_agree_violated"
   ],
   "note": "With step-forward the kernel is told to insert a second (to put the clock back) and not to delete one (witnesses); proved for the clocks of the interfaces and for the other policies."
  },
  {
   "property": "C82",
   "status": "proved",
   "theorems": [
    "Verif.Leap.C82_cancel"
   ],
   "note": ""
  },
  {
   "property": "C83",
   "status": "partial",
   "theorems": [
    "Verif.Leap.C83_abort_partial",
    "Verif.Leap.C83_abort_violated"
   ],
   "note": "testmode=local_leap_second_cancel fails an assertion (witness); exact characterisation of the requests that do."
  },
  {
   "property": "C84",
   "status": "partial",
   "theorems": [
    "Verif.PtpServo.C84_authority_partial",
    "Verif.PtpServo.C84_uncontrolled",
    "Verif.PtpServo.C84_authority_violated"
   ],
   "note": "A reset sets the frequency of the clock to the saved correction whoever controls it (witness); proved: measurements need control, and resets do nothing else to the clock."
  },
  {
   "property": "C85",
   "status": "partial",
   "theorems": [
    "Verif.PtpServo.C85_cause",
    "Verif.PtpServo.C85_effect",
    "Verif.PtpServo.C85_startup_partial",
    "Verif.PtpServo.C85_readonly",
    "Verif.PtpServo.C85_startup_violated"
   ],
   "note": "A port initialised again after a fault forgets that the clock was updated and steps again (witness); at most one step proved between initialisations. Cause and effect proved in full."
  },
  {
   "property": "C86",
   "status": "proved",
   "theorems": [
    "Verif.PtpServo.C86_range",
    "Verif.PtpServo.C86_slew"
   ],
   "note": ""
  },
  {
   "property": "C87",
   "status": "proved",
   "theorems": [
    "Verif.PtpServo.C87_guard"
   ],
   "note": ""
  },
  {
   "property": "C88",
   "status": "proved",
   "theorems": [
    "Verif.PtpServo.C88_fresh",
    "Verif.PtpServo.C88_since",
    "Verif.PtpServo.C88_suspended"
   ],
   "note": ""
  },
  {
   "property": "C89",
   "status": "partial",
   "theorems": [
    "Verif.PtpServo.C89_alarm_partial",
    "Verif.PtpServo.C89_alarm_violated",
    "Verif.PtpServo.C89_reset_violated"
   ],
   "note": "The frequency set after a step overwrites the alarm of a failed step, and a reset clears it in any case (witnesses); proved: the alarm is the result of the last request."
  },
  {
   "property": "C90",
   "status": "partial",
   "theorems": [
    "Verif.Engine.C90_at_most_one",
    "Verif.Engine.C90_exactly_one_partial",
    "Verif.Engine.C90_violated"
   ],
   "note": "At most one proved in full. A failed control call leaves nobody in control (witness); exactly one proved while calls succeed."
  },
  {
   "property": "C91",
   "status": "partial",
   "theorems": [
    "Verif.Engine.C91_servos",
    "Verif.Engine.C91_enough_partial",
    "Verif.Engine.C91_enough_violated"
   ],
   "note": "Coverage proved while calls succeed and hot-plugging is noticed. More than sixteen clocks hot-plugged fail an assertion (witness); otherwise no event fails one."
  },
  {
   "property": "C92",
   "status": "partial",
   "theorems": [
    "Verif.Engine.C92_gm_partial",
    "Verif.Engine.C92_violated"
   ],
   "note": "Loss of traceability is not passed on (witness); proved for the fields that are compared."
  },
  {
   "property": "C93",
   "status": "partial",
   "theorems": [
    "Verif.Engine.C93_holdoff_partial",
    "Verif.Engine.C93_violated"
   ],
   "note": "The timer is not stopped when the selected instance recovers, so a later loss may get less than the interval (witness); proved in full if there was no recovery, and with the interval counted from the recovery otherwise."
  },
  {
   "property": "C94",
   "status": "partial",
   "theorems": [
    "Verif.Engine.C94_converges_partial",
    "Verif.Engine.C94_violated",
    "Verif.Engine.C94_never_selected"
   ],
   "note": "With manual-startup and a holdoff interval of zero the elected instance is never selected (witness and universal theorem); proved otherwise."
  },
  {
   "property": "C95",
   "status": "partial",
   "theorems": [
    "Verif.Engine.C95_manual",
    "Verif.Engine.C95_bic_honours",
    "Verif.Engine.C95_pending_overrides"
   ],
   "note": "Proved for any election that honours the mark, and that the election does if numbers and NaN do not mix (C06). With other policies a pending candidate replaces a later choice of the operator."
  },
  {
   "property": "C96",
   "status": "partial",
   "theorems": [
    "Verif.Engine.C96_step_partial",
    "Verif.Engine.C96_blocked",
    "Verif.Engine.C96_violated"
   ],
   "note": "A chrony or NTP module that does not exist makes the command fail an assertion (witness); proved otherwise."
  },
  {
   "property": "C97",
   "status": "partial",
   "theorems": [
    "Verif.Engine.C97_score_partial",
    "Verif.Engine.C97_refused",
    "Verif.Engine.C97_zero_offset",
    "Verif.Engine.C97_violated"
   ],
   "note": "The result of a failed comparison is used (witness), and an offset of exactly zero counts as unknown; proved otherwise."
  },
  {
   "property": "C98",
   "status": "partial",
   "theorems": [
    "Verif.Engine.C98_startup_partial",
    "Verif.Engine.C98_violated"
   ],
   "note": "An instance that was not created makes the engine shut down and report success (witness); proved otherwise."
  },
  {
   "property": "C99",
   "status": "proved",
   "theorems": [
    "Verif.Engine.C99_feeds"
   ],
   "note": ""
  },
  {
   "property": "C100",
   "status": "proved",
   "theorems": [
    "Verif.Control.C100_understood"
   ],
   "note": "strtod is a parameter assumed to read numbers."
  },
  {
   "property": "C101",
   "status": "partial",
   "theorems": [
    "Verif.Control.C101_words_partial",
    "Verif.Control.C101_asked",
    "Verif.Control.C101_truncated",
    "Verif.Control.C101_wrapped",
    "Verif.Control.C101_violated"
   ],
   "note": "The action is always that of the datagram's first word, with parameters in bounds. What follows is not checked completely (witness: pid_adjust=ptp sets a coefficient to zero); datagrams are cut at 127 bytes and parameters of test modes wrap."
  },
  {
   "property": "C102",
   "status": "partial",
   "theorems": [
    "Verif.Control.C102_name_partial",
    "Verif.Control.C102_violated",
    "Verif.Control.C102_equals"
   ],
   "note": "Names of 63 characters may not be terminated in the message (witness) and names with = are cut; proved otherwise."
  },
  {
   "property": "C103",
   "status": "partial",
   "theorems": [
    "Verif.Control.C103_port_partial",
    "Verif.Control.C103_servo",
    "Verif.Control.C103_nan",
    "Verif.Control.C103_violated"
   ],
   "note": "Proved for engine and PPS servos, and for ports while all coefficients are given or the port is not initialised again; otherwise a coefficient left out becomes NaN (witness and universal theorem)."
  },
  {
   "property": "C104",
   "status": "partial",
   "theorems": [
    "Verif.Peer.C104_exchange_partial",
    "Verif.Peer.C104_one_peer",
    "Verif.Peer.C104_violated"
   ],
   "note": "All but that the follow-up is from the same port as the answer, which is not checked (witness); in full where one other port is heard."
  },
  {
   "property": "C105",
   "status": "partial",
   "theorems": [
    "Verif.Peer.C105_correction_partial",
    "Verif.Peer.C105_violated"
   ],
   "note": "In two steps the correction of the Pdelay_Resp is lost (witness); proved in one step and up to exactly that term."
  },
  {
   "property": "C106",
   "status": "partial",
   "theorems": [
    "Verif.Peer.C106_elapsed_partial",
    "Verif.Peer.C106_same_shift",
    "Verif.Peer.C106_violated"
   ],
   "note": "Exact up to the change of the UTC shift during the exchange, which is proved to be the only error (witness with 37 s)."
  },
  {
   "property": "C107",
   "status": "partial",
   "theorems": [
    "Verif.Peer.C107_answers",
    "Verif.Peer.C107_follow_up_partial",
    "Verif.Peer.C107_violated",
    "Verif.Peer.C107_each_violated"
   ],
   "note": "The follow-up's port and correction are taken from the latest request, even one whose answer could not be sent (witness); answers overtaken by another are not followed up (witness)."
  },
  {
   "property": "C108",
   "status": "proved",
   "theorems": [
    "Verif.Peer.C108_follow_up",
    "Verif.Peer.C108_due"
   ],
   "note": ""
  },
  {
   "property": "C109",
   "status": "partial",
   "theorems": [
    "Verif.Peer.C109_master_partial",
    "Verif.Peer.C109_follow_up",
    "Verif.Peer.C109_delay_resp",
    "Verif.Peer.C109_violated"
   ],
   "note": "A Follow_Up is sent in any state, but only of a Sync sent as a master (witness)."
  },
  {
   "property": "C110",
   "status": "partial",
   "theorems": [
    "Verif.Peer.C110_counters_partial",
    "Verif.Peer.C110_violated"
   ],
   "note": "Delay_Resps are counted as Pdelay_Resps (witness); all others exact."
  },
  {
   "property": "C111",
   "status": "partial",
   "theorems": [
    "Verif.Peer.C111_asks_again_partial",
    "Verif.Peer.C111_violated"
   ],
   "note": "Proved unless a management message switches to peer-to-peer (witness)."
  },
  {
   "property": "C112",
   "status": "partial",
   "theorems": [
    "Verif.Peer.C112_one_step_partial",
    "Verif.Peer.C112_two_step_partial",
    "Verif.Peer.C112_violated",
    "Verif.Peer.C112_passive_violated"
   ],
   "note": "Proved if the transmit time comes first and the port is listening, slave or master; not otherwise (witnesses)."
  },
  {
   "property": "C113",
   "status": "partial",
   "theorems": [
    "Verif.Peer.C113_numbers_partial",
    "Verif.Peer.C113_violated"
   ],
   "note": "Announces in full; Syncs and Pdelay_Reqs unless one could not be sent, whose number is left out (witness)."
  },
  {
   "property": "C114",
   "status": "partial",
   "theorems": [
    "Verif.Pps.C114_partial",
    "Verif.Pps.C114_violated"
   ],
   "note": "Proved if the error of the time of day is less than what the difference lacks to half a second, and to be wrong by a second at most otherwise (witness)."
  },
  {
   "property": "C115",
   "status": "partial",
   "theorems": [
    "Verif.Pps.C115_partial",
    "Verif.Pps.C115_violated"
   ],
   "note": "The step is the difference without the propagation delay (witness); the rest as stated."
  },
  {
   "property": "C116",
   "status": "proved",
   "theorems": [
    "Verif.Pps.C116"
   ],
   "note": "For times of pulses after the first second of the epoch, which the code takes for none."
  },
  {
   "property": "C117",
   "status": "partial",
   "theorems": [
    "Verif.Pps.C117_partial",
    "Verif.Pps.C117_violated"
   ],
   "note": "Proved unless the processing of timestamps was switched off before (witness)."
  },
  {
   "property": "C118",
   "status": "partial",
   "theorems": [
    "Verif.Pps.C118_partial",
    "Verif.Pps.C118_violated"
   ],
   "note": "Proved for states other than listening: the return to listening is not told (witness)."
  },
  {
   "property": "C119",
   "status": "partial",
   "theorems": [
    "Verif.Pps.C119_partial",
    "Verif.Pps.C119_violated"
   ],
   "note": "Proved for instances that are polled; with a file descriptor the engine is not told (witness)."
  },
  {
   "property": "C120",
   "status": "partial",
   "theorems": [
    "Verif.Pps.C120_partial",
    "Verif.Pps.C120_violated"
   ],
   "note": "The flag is left set on alarms (witness); proved that the instance is a slave, and its offset within the limit if there are no alarms."
  },
  {
   "property": "C121",
   "status": "partial",
   "theorems": [
    "Verif.Pps.C121_partial",
    "Verif.Pps.C121_violated"
   ],
   "note": "Proved if the event before was a poll; a loss noticed by the timer is not counted (witness)."
  },
  {
   "property": "C122",
   "status": "proved",
   "theorems": [
    "Verif.Pps.C122"
   ],
   "note": ""
  },
  {
   "property": "C123",
   "status": "partial",
   "theorems": [
    "Verif.Pps.C123_partial",
    "Verif.Pps.C123_violated"
   ],
   "note": "Proved with a source of the time of day; without, a command to step fails an assertion (witness)."
  },
  {
   "property": "C124",
   "status": "partial",
   "theorems": [
    "Verif.Pps.C124_partial",
    "Verif.Pps.C124_violated"
   ],
   "note": "Proved if no other instance asked since; answers about another's clock are taken for the own (witness)."
  },
  {
   "property": "C125",
   "status": "partial",
   "theorems": [
    "Verif.Pps.C125_partial",
    "Verif.Pps.C125_violated"
   ],
   "note": "Proved for the poll that asks; instances that never come to ask have no alarm (witness)."
  },
  {
   "property": "C126",
   "status": "proved",
   "theorems": [
    "Verif.Pps.C126"
   ],
   "note": ""
  },
  {
   "property": "C127",
   "status": "partial",
   "theorems": [
    "Verif.Pps.C127_partial",
    "Verif.Pps.C127_violated"
   ],
   "note": "Proved in control or if steps are forbidden; otherwise an old offset is posted (witness)."
  },
  {
   "property": "C128",
   "status": "partial",
   "theorems": [
    "Verif.Crny.C128_never",
    "Verif.Crny.C128_violated"
   ],
   "note": "The opposite is proved: the module is never a slave, because what was learnt of a source is erased before it is used (witness)."
  },
  {
   "property": "C129",
   "status": "partial",
   "theorems": [
    "Verif.Crny.C129_partial",
    "Verif.Crny.C129_violated"
   ],
   "note": "Proved for sources with addresses that are not reference clocks; sources after one of those are lost (witness)."
  },
  {
   "property": "C130",
   "status": "partial",
   "theorems": [
    "Verif.Crny.C130_partial",
    "Verif.Crny.C130_violated"
   ],
   "note": "Proved without clock control; with it the clock stays blocked after the module has stopped chronyd (witness)."
  },
  {
   "property": "C131",
   "status": "partial",
   "theorems": [
    "Verif.Crny.C131_partial",
    "Verif.Crny.C131_violated"
   ],
   "note": "Proved unless the module was disabled or already took chronyd to be disciplining; a chronyd started later is left alone (witness)."
  },
  {
   "property": "C132",
   "status": "partial",
   "theorems": [
    "Verif.Crny.C132_partial",
    "Verif.Crny.C132_cause",
    "Verif.Crny.C132_absent",
    "Verif.Crny.C132_violated"
   ],
   "note": "Causes proved in full; the return proved for a chronyd with sources, without any the module stays disabled (witness)."
  },
  {
   "property": "C133",
   "status": "partial",
   "theorems": [
    "Verif.Crny.C133_partial",
    "Verif.Crny.C133_violated",
    "Verif.Crny.C133_violated_cluster"
   ],
   "note": "Proved for all replies without a negative number of sources, if the module is no determinant for clustering (two witnesses)."
  },
  {
   "property": "C134",
   "status": "partial",
   "theorems": [
    "Verif.Crny.C134_partial",
    "Verif.Crny.C134_controlled",
    "Verif.Crny.C134_violated"
   ],
   "note": "Whenever it is told, it is told right; but constraints alone are not told (witness)."
  },
  {
   "property": "C135",
   "status": "partial",
   "theorems": [
    "Verif.Crny.C135_partial",
    "Verif.Crny.C135_violated"
   ],
   "note": "The content of a late reply is not used, but it moves the query on (witness)."
  },
  {
   "property": "C136",
   "status": "proved",
   "theorems": [
    "Verif.Crny.C136_float"
   ],
   "note": "The product is exact in a double, so rationals are used."
  },
  {
   "property": "C137",
   "status": "partial",
   "theorems": [
    "Verif.Crny.C137_partial",
    "Verif.Crny.C137_violated"
   ],
   "note": "Proved to recognise exactly arguments that begin with -x; -rx is missed (witness)."
  },
  {
   "property": "C138",
   "status": "proved",
   "theorems": [
    "Verif.Clock.C138_readonly_untouched",
    "Verif.Clock.C138_no_adjust"
   ],
   "note": "For every configuration with a limit that is not negative and a tick frequency dividing 100000."
  },
  {
   "property": "C139",
   "status": "partial",
   "theorems": [
    "Verif.Clock.C139_partial",
    "Verif.Clock.C139_violated"
   ],
   "note": "Steps and frequencies proved; the leap status of the system clock is written even if it is blocked (witness)."
  },
  {
   "property": "C140",
   "status": "proved",
   "theorems": [
    "Verif.Clock.C140_sane"
   ],
   "note": "Over all reachable states."
  },
  {
   "property": "C141",
   "status": "partial",
   "theorems": [
    "Verif.Clock.C141_partial",
    "Verif.Clock.C141_exact_partial",
    "Verif.Clock.C141_violated"
   ],
   "note": "Error of at most half a tick always; exact within the tolerance and where the rest is rounded up; 540 ppm gives 500 ppm (witness)."
  },
  {
   "property": "C142",
   "status": "partial",
   "theorems": [
    "Verif.Clock.C142_partial",
    "Verif.Clock.C142_violated"
   ],
   "note": "Proved for clocks that may be written; for read-only or blocked ones nothing is done and 0 is returned (witness)."
  },
  {
   "property": "C143",
   "status": "partial",
   "theorems": [
    "Verif.Clock.C143_partial",
    "Verif.Clock.C143_violated"
   ],
   "note": "The signed difference is compared with the threshold (witness)."
  },
  {
   "property": "C144",
   "status": "partial",
   "theorems": [
    "Verif.Clock.C144_partial",
    "Verif.Clock.C144_run_partial",
    "Verif.Clock.C144_violated"
   ],
   "note": "The exact condition is proved, and safety without interface changes; after an adapter was removed the next step fails an assertion (witness)."
  },
  {
   "property": "C145",
   "status": "partial",
   "theorems": [
    "Verif.Clock.C145_partial",
    "Verif.Clock.C145_violated"
   ],
   "note": "Proved for the first correction; a clock is never corrected twice (witness)."
  },
  {
   "property": "C146",
   "status": "partial",
   "theorems": [
    "Verif.Clock.C146_partial",
    "Verif.Clock.C146_violated"
   ],
   "note": "Proved for users who alternate; a stray unblock counts for others (witness)."
  },
  {
   "property": "C147",
   "status": "partial",
   "theorems": [
    "Verif.Clock.C147_partial",
    "Verif.Clock.C147_violated"
   ],
   "note": "The announcement is proved; the state that adjtimex returns is passed on as the result (witness)."
  },
  {
   "property": "C148",
   "status": "partial",
   "theorems": [
    "Verif.Clock.C148_partial",
    "Verif.Clock.C148_violated"
   ],
   "note": "The exact movement of each clock is proved; clocks that are not disciplined are moved too (witness)."
  },
  {
   "property": "C149",
   "status": "partial",
   "theorems": [
    "Verif.Clock.C149_partial",
    "Verif.Clock.C149_violated"
   ],
   "note": "Never returns a clock at all (witness)."
  },
  {
   "property": "C150",
   "status": "proved",
   "theorems": [
    "Verif.Clock.C150_compare"
   ],
   "note": ""
  },
  {
   "property": "C151",
   "status": "partial",
   "theorems": [
    "Verif.Clock.C151_partial",
    "Verif.Clock.C151_violated"
   ],
   "note": "Proved for corrections that are at least half a unit of the last decimal within the limit (witness)."
  },
  {
   "property": "C152",
   "status": "proved",
   "theorems": [
    "Verif.Clock.C152_configured"
   ],
   "note": "For a clock that is not yet disciplined."
  },
  {
   "property": "C153",
   "status": "partial",
   "theorems": [
    "Verif.Clock.C153_partial",
    "Verif.Clock.C153_violated"
   ],
   "note": "Proved for the last entry; results of earlier entries are overwritten (witness)."
  },
  {
   "property": "C154",
   "status": "partial",
   "theorems": [
    "Verif.Clock.C154_partial",
    "Verif.Clock.C154_violated"
   ],
   "note": "Proved if all clocks are disciplined, other makes are allowed or no clocks are listed (witness)."
  },
  {
   "property": "C155",
   "status": "partial",
   "theorems": [
    "Verif.Clock.C155_partial",
    "Verif.Clock.C155_violated"
   ],
   "note": "The saved correction or zero is written to the clock of the interface (witness)."
  },
  {
   "property": "C156",
   "status": "proved",
   "theorems": [
    "Verif.Clock.C156_ids"
   ],
   "note": ""
  },
  {
   "property": "C157",
   "status": "partial",
   "theorems": [
    "Verif.Clock.C157_partial",
    "Verif.Clock.C157_violated"
   ],
   "note": "That a device is open exactly if the NIC has one is proved; a device with another number is not opened in its place (witness)."
  },
  {
   "property": "C158",
   "status": "proved",
   "theorems": [
    "Verif.Phc.C158_diff_methods"
   ],
   "note": ""
  },
  {
   "property": "C159",
   "status": "partial",
   "theorems": [
    "Verif.Phc.C159_pps_methods_partial",
    "Verif.Phc.C159_violated",
    "Verif.Phc.C159_rules_violated"
   ],
   "note": "The methods listed come first; the rest of the previous order stays in effect and the end mark is written over the selection rules (witnesses)."
  },
  {
   "property": "C160",
   "status": "proved",
   "theorems": [
    "Verif.Phc.C160_set_methods"
   ],
   "note": ""
  },
  {
   "property": "C161",
   "status": "proved",
   "theorems": [
    "Verif.Phc.C161_clock_id"
   ],
   "note": ""
  },
  {
   "property": "C162",
   "status": "proved",
   "theorems": [
    "Verif.Phc.C162_smallest_window",
    "Verif.Phc.C162_read_time"
   ],
   "note": ""
  },
  {
   "property": "C163",
   "status": "proved",
   "theorems": [
    "Verif.Phc.C163_accuracy"
   ],
   "note": ""
  },
  {
   "property": "C164",
   "status": "partial",
   "theorems": [
    "Verif.Phc.C164_pps_diff_partial",
    "Verif.Phc.C164_violated"
   ],
   "note": "Exact where the true difference is farther from half a second than the rough comparison is wrong; near half a second it is a second off (witness)."
  },
  {
   "property": "C165",
   "status": "partial",
   "theorems": [
    "Verif.Phc.C165_normal_partial",
    "Verif.Phc.C165_violated"
   ],
   "note": "Fails only for a pulse exactly at the second (witness)."
  },
  {
   "property": "C166",
   "status": "partial",
   "theorems": [
    "Verif.Phc.C166_first_usable_partial",
    "Verif.Phc.C166_table",
    "Verif.Phc.C166_violated"
   ],
   "note": "Proved unless listing the PPS devices fails without an error number, as it does for an empty directory (witness)."
  },
  {
   "property": "C167",
   "status": "partial",
   "theorems": [
    "Verif.Phc.C167_no_fault_partial",
    "Verif.Phc.C167_violated"
   ],
   "note": "Proved where names of PPS devices are shorter than 16 characters and the directory is not empty (witness)."
  },
  {
   "property": "C168",
   "status": "proved",
   "theorems": [
    "Verif.Phc.C168_two_chances",
    "Verif.Phc.C168_retry_time",
    "Verif.Phc.C168_second_chance"
   ],
   "note": ""
  },
  {
   "property": "C169",
   "status": "partial",
   "theorems": [
    "Verif.Phc.C169_after_step_partial",
    "Verif.Phc.C169_violated"
   ],
   "note": "A pulse pending at the step is used if none was used before it (witness)."
  },
  {
   "property": "C170",
   "status": "partial",
   "theorems": [
    "Verif.Phc.C170_repeated_partial",
    "Verif.Phc.C170_no_method",
    "Verif.Phc.C170_violated"
   ],
   "note": "The one exception is a difference of zero before any was measured (witness)."
  },
  {
   "property": "C171",
   "status": "partial",
   "theorems": [
    "Verif.Phc.C171_external_partial",
    "Verif.Phc.C171_violated"
   ],
   "note": "The companion may be anywhere after the internal device (witness)."
  },
  {
   "property": "C172",
   "status": "proved",
   "theorems": [
    "Verif.Phc.C172_input_method"
   ],
   "note": ""
  },
  {
   "property": "C173",
   "status": "partial",
   "theorems": [
    "Verif.Phc.C173_events_partial",
    "Verif.Phc.C173_violated"
   ],
   "note": "Exactly the changes of the record of the kernel are reported; the empty record before the first pulse is reported too (witness)."
  },
  {
   "property": "C174",
   "status": "proved",
   "theorems": [
    "Verif.Phc.C174_devptp_event",
    "Verif.Phc.C174_devptp_found"
   ],
   "note": ""
  },
  {
   "property": "C175",
   "status": "proved",
   "theorems": [
    "Verif.Phc.C175_descriptors",
    "Verif.Phc.C175_failure_told"
   ],
   "note": "Where names of PPS devices are shorter than 16 characters."
  },
  {
   "property": "C176",
   "status": "proved",
   "theorems": [
    "Verif.Ntp.C176_state"
   ],
   "note": ""
  },
  {
   "property": "C177",
   "status": "partial",
   "theorems": [
    "Verif.Ntp.C177_partial",
    "Verif.Ntp.C177_identity_partial",
    "Verif.Ntp.C177_violated",
    "Verif.Ntp.C177_old_violated"
   ],
   "note": "Both halves fail (witnesses): a new offset never ends the wait, an error or the loss of the peer does, after which the old offset is used. Proved: the module is not slave until then."
  },
  {
   "property": "C178",
   "status": "proved",
   "theorems": [
    "Verif.Ntp.C178_commands"
   ],
   "note": ""
  },
  {
   "property": "C179",
   "status": "partial",
   "theorems": [
    "Verif.Ntp.C179_partial",
    "Verif.Ntp.C179_violated"
   ],
   "note": "A constraint set by a failed command of the engine is not reported (witness). Proved for everything else, and for constraints unless the engine has asked for a change."
  },
  {
   "property": "C180",
   "status": "partial",
   "theorems": [
    "Verif.Ntp.C180_partial",
    "Verif.Ntp.C180_violated"
   ],
   "note": "Both can be set (witness). Proved: each one stems from a failed command with no success since."
  },
  {
   "property": "C181",
   "status": "partial",
   "theorems": [
    "Verif.Ntp.C181_partial",
    "Verif.Ntp.C181_violated",
    "Verif.Ntp.C181_cluster_violated"
   ],
   "note": "Two reads at index -1 (witnesses). Proved: there is no other failure."
  },
  {
   "property": "C182",
   "status": "partial",
   "theorems": [
    "Verif.Ntp.C182_partial",
    "Verif.Ntp.C182_violated"
   ],
   "note": "Once ntpd has been seen the state is faulty instead (witness). Proved where it never was, and that it is faulty otherwise."
  },
  {
   "property": "C183",
   "status": "partial",
   "theorems": [
    "Verif.Ntp.C183_partial",
    "Verif.Ntp.C183_violated"
   ],
   "note": "A protocol is never given up (witness). Proved as long as none is in use."
  },
  {
   "property": "C184",
   "status": "partial",
   "theorems": [
    "Verif.Ntp.C184_partial",
    "Verif.Ntp.C184_violated"
   ],
   "note": "The second poll comes at once, and late polls are made up for (witness). Proved: poll number n+2 is later than n intervals after the start."
  },
  {
   "property": "C185",
   "status": "partial",
   "theorems": [
    "Verif.Ntp.C185_partial",
    "Verif.Ntp.C185_violated"
   ],
   "note": "The statistics carry the previous offset (witness). Proved for the offset known before the event."
  },
  {
   "property": "C186",
   "status": "partial",
   "theorems": [
    "Verif.Ntp.C186_partial",
    "Verif.Ntp.C186_violated"
   ],
   "note": "Without an instance, an ntpd started later is only logged (witness). Proved for the start."
  },
  {
   "property": "C187",
   "status": "partial",
   "theorems": [
    "Verif.Ntp.C187_partial",
    "Verif.Ntp.C187_violated"
   ],
   "note": "Tried only when the report changes (witness). Proved for changes."
  },
  {
   "property": "C188",
   "status": "partial",
   "theorems": [
    "Verif.Ntp.C188_partial",
    "Verif.Ntp.C188_violated",
    "Verif.Ntp.C188_first_violated"
   ],
   "note": "After an error the last values stay, and before the first answer the accuracy is 0 (witnesses). Proved after successful answers and for replies."
  },
  {
   "property": "C189",
   "status": "proved",
   "theorems": [
    "Verif.Ntp6.C189_reply_from_packets"
   ],
   "note": ""
  },
  {
   "property": "C190",
   "status": "proved",
   "theorems": [
    "Verif.Ntp6.C190_reply_complete"
   ],
   "note": ""
  },
  {
   "property": "C191",
   "status": "partial",
   "theorems": [
    "Verif.Ntp6.C191_bounds_partial",
    "Verif.Ntp6.C191_violated"
   ],
   "note": "Error codes above 7 read the table outside (witness). Proved otherwise."
  },
  {
   "property": "C192",
   "status": "proved",
   "theorems": [
    "Verif.Ntp6.C192_query_ends"
   ],
   "note": ""
  },
  {
   "property": "C193",
   "status": "partial",
   "theorems": [
    "Verif.Ntp6.C193_errors_partial",
    "Verif.Ntp6.C193_violated"
   ],
   "note": "Error code 7 is taken for success (witness). Proved for the codes 0 to 6; their meaning for 0 to 3."
  },
  {
   "property": "C194",
   "status": "partial",
   "theorems": [
    "Verif.Ntp6.C194_association_partial",
    "Verif.Ntp6.C194_violated"
   ],
   "note": "The association is not checked (witness). Proved when every packet that answers the query is about the association."
  },
  {
   "property": "C195",
   "status": "partial",
   "theorems": [
    "Verif.Ntp6.C195_end_partial",
    "Verif.Ntp6.C195_violated"
   ],
   "note": "A packet beyond the final one is taken (witness). Proved when there is none."
  },
  {
   "property": "C196",
   "status": "proved",
   "theorems": [
    "Verif.Ntp6.C196_variables"
   ],
   "note": ""
  },
  {
   "property": "C197",
   "status": "proved",
   "theorems": [
    "Verif.Ntp6.C197_progress"
   ],
   "note": ""
  },
  {
   "property": "C198",
   "status": "partial",
   "theorems": [
    "Verif.Ntp6.C198_safe_partial",
    "Verif.Ntp6.C198_violated",
    "Verif.Ntp6.C198_bracket_violated"
   ],
   "note": "A name without a value is a null pointer, a bracket that is not closed is searched for outside (witnesses). Proved otherwise."
  },
  {
   "property": "C199",
   "status": "proved",
   "theorems": [
    "Verif.Ntp6.C199_addresses"
   ],
   "note": ""
  },
  {
   "property": "C200",
   "status": "proved",
   "theorems": [
    "Verif.Ntp6.C200_peer_address",
    "Verif.Ntp6.C200_results"
   ],
   "note": ""
  },
  {
   "property": "C201",
   "status": "partial",
   "theorems": [
    "Verif.Ntp6.C201_peers_partial",
    "Verif.Ntp6.C201_violated",
    "Verif.Ntp6.C201_overrun"
   ],
   "note": "Associations that are passed over leave gaps in the table which the count does not allow for, and the table is overrun by the 33rd (witnesses). Proved when no more than 32 are listed and all are configured or reachable."
  },
  {
   "property": "C202",
   "status": "partial",
   "theorems": [
    "Verif.Ntp6.C202_kept_partial",
    "Verif.Ntp6.C202_violated",
    "Verif.Ntp6.C202_peer_violated"
   ],
   "note": "Failures give 0 (witnesses). Proved: without the list the table stays as it was."
  },
  {
   "property": "C203",
   "status": "partial",
   "theorems": [
    "Verif.Ntp6.C203_confirmed_partial",
    "Verif.Ntp6.C203_violated"
   ],
   "note": "A short answer is completed by what an earlier one left in the buffer (witness). Proved for answers of at least 18 bytes."
  },
  {
   "property": "C204",
   "status": "proved",
   "theorems": [
    "Verif.Ntp6.C204_request"
   ],
   "note": ""
  },
  {
   "property": "C205",
   "status": "proved",
   "theorems": [
    "Verif.Ntp6.C205_query_data"
   ],
   "note": ""
  },
  {
   "property": "C206",
   "status": "proved",
   "theorems": [
    "Verif.Ntp7.C206_addition",
    "Verif.Ntp7.C206_request_time"
   ],
   "note": ""
  },
  {
   "property": "C207",
   "status": "proved",
   "theorems": [
    "Verif.Ntp7.C207_request",
    "Verif.Ntp7.C207_authenticated"
   ],
   "note": ""
  },
  {
   "property": "C208",
   "status": "proved",
   "theorems": [
    "Verif.Ntp7.C208_ignored",
    "Verif.Ntp7.C208_refused"
   ],
   "note": ""
  },
  {
   "property": "C209",
   "status": "partial",
   "theorems": [
    "Verif.Ntp7.C209_partial",
    "Verif.Ntp7.C209_in_order_partial",
    "Verif.Ntp7.C209_violated",
    "Verif.Ntp7.C209_violated_duplicate"
   ],
   "note": "Parts are kept in the order of arrival and duplicates are counted (witnesses). Proved when each part arrives once; in their order the result is exactly the answer."
  },
  {
   "property": "C210",
   "status": "partial",
   "theorems": [
    "Verif.Ntp7.C210_partial",
    "Verif.Ntp7.C210_violated"
   ],
   "note": "Error codes above 7 read the table outside (witness), and the comparison of addresses may overflow. Proved: there is nothing else."
  },
  {
   "property": "C211",
   "status": "proved",
   "theorems": [
    "Verif.Ntp7.C211_time",
    "Verif.Ntp7.C211_silence"
   ],
   "note": ""
  },
  {
   "property": "C212",
   "status": "proved",
   "theorems": [
    "Verif.Ntp7.C212_retries",
    "Verif.Ntp7.C212_smaller"
   ],
   "note": ""
  },
  {
   "property": "C213",
   "status": "partial",
   "theorems": [
    "Verif.Ntp7.C213_partial",
    "Verif.Ntp7.C213_violated",
    "Verif.Ntp7.C213_violated_empty"
   ],
   "note": "The result of getnameinfo is returned, and an answer without items is success (witnesses). Proved when there is a name for the address."
  },
  {
   "property": "C214",
   "status": "proved",
   "theorems": [
    "Verif.Ntp7.C214_peers"
   ],
   "note": ""
  },
  {
   "property": "C215",
   "status": "proved",
   "theorems": [
    "Verif.Ntp7.C215_bounded"
   ],
   "note": ""
  },
  {
   "property": "C216",
   "status": "proved",
   "theorems": [
    "Verif.Ntp7.C216_silent",
    "Verif.Ntp7.C216_no_peers"
   ],
   "note": ""
  },
  {
   "property": "C217",
   "status": "partial",
   "theorems": [
    "Verif.Ntp7.C217_partial",
    "Verif.Ntp7.C217_violated"
   ],
   "note": "The root dispersion of a peer without statistics is that of the earlier entry (witness). Proved for everything else."
  },
  {
   "property": "C218",
   "status": "partial",
   "theorems": [
    "Verif.Ntp7.C218_partial",
    "Verif.Ntp7.C218_violated",
    "Verif.Ntp7.C218_violated_v6"
   ],
   "note": "The comparison may overflow, and information about IPv6 peers is not compared (witnesses). Proved otherwise."
  },
  {
   "property": "C219",
   "status": "proved",
   "theorems": [
    "Verif.Ntp7.C219_no_key",
    "Verif.Ntp7.C219_success",
    "Verif.Ntp7.C219_granted"
   ],
   "note": ""
  },
  {
   "property": "C220",
   "status": "proved",
   "theorems": [
    "Verif.Ntp7.C220_short",
    "Verif.Ntp7.C220_peers"
   ],
   "note": ""
  },
  {
   "property": "C221",
   "status": "partial",
   "theorems": [
    "Verif.Ntp7.C221_partial",
    "Verif.Ntp7.C221_violated"
   ],
   "note": "An empty datagram or an error ends the emptying of the socket (witness). Proved when there are none."
  },
  {
   "property": "C222",
   "status": "proved",
   "theorems": [
    "Verif.Ntp7.C222_reading"
   ],
   "note": ""
  },
  {
   "property": "C223",
   "status": "proved",
   "theorems": [
    "Verif.Ntp7.C223_created",
    "Verif.Ntp7.C223_sound",
    "Verif.Ntp7.C223_failed"
   ],
   "note": ""
  },
  {
   "property": "C224",
   "status": "partial",
   "theorems": [
    "Verif.Bond.C224_found",
    "Verif.Bond.C224_ends_partial",
    "Verif.Bond.C224_violated"
   ],
   "note": "VLANs that are on each other make the search go on for ever (witness). Proved: the link below all VLANs is found whenever there is one, and the search ends when there is no such cycle."
  },
  {
   "property": "C225",
   "status": "proved",
   "theorems": [
    "Verif.Bond.C225_slaves",
    "Verif.Bond.C225_bounds"
   ],
   "note": ""
  },
  {
   "property": "C226",
   "status": "proved",
   "theorems": [
    "Verif.Bond.C226_team_order"
   ],
   "note": ""
  },
  {
   "property": "C227",
   "status": "partial",
   "theorems": [
    "Verif.Bond.C227_refused",
    "Verif.Bond.C227_abort_partial",
    "Verif.Bond.C227_violated"
   ],
   "note": "Without slaves an assertion fails (witness). Proved: that this is the only case, and the refusal in all others."
  },
  {
   "property": "C228",
   "status": "proved",
   "theorems": [
    "Verif.Bond.C228_member",
    "Verif.Bond.C228_active_backup",
    "Verif.Bond.C228_lacp"
   ],
   "note": ""
  },
  {
   "property": "C229",
   "status": "partial",
   "theorems": [
    "Verif.Bond.C229_none_partial",
    "Verif.Bond.C229_violated"
   ],
   "note": "In LACP bonds and bridges the entry left over from before becomes active (witness). Proved for all other links and for a fresh record."
  },
  {
   "property": "C230",
   "status": "partial",
   "theorems": [
    "Verif.Bond.C230_bridge_partial",
    "Verif.Bond.C230_violated"
   ],
   "note": "The first slave with a link replaces the active one (witness). Proved when the other slaves have no link."
  },
  {
   "property": "C231",
   "status": "proved",
   "theorems": [
    "Verif.Bond.C231_single"
   ],
   "note": ""
  },
  {
   "property": "C232",
   "status": "partial",
   "theorems": [
    "Verif.Bond.C232_never_partial",
    "Verif.Bond.C232_violated"
   ],
   "note": "The mark is taken from the link of the slave (witness). Proved: no slave is ever marked."
  },
  {
   "property": "C233",
   "status": "partial",
   "theorems": [
    "Verif.Bond.C233_member",
    "Verif.Bond.C233_preferred_partial",
    "Verif.Bond.C233_violated"
   ],
   "note": "A first slave that is down is used if it has hardware timestamps (witness). Proved when the first slave is up or has none, and for all lists that one of the slaves is used."
  },
  {
   "property": "C234",
   "status": "partial",
   "theorems": [
    "Verif.Bond.C234_stays_partial",
    "Verif.Bond.C234_violated"
   ],
   "note": "Not when the first slave is down (witness). Proved otherwise."
  },
  {
   "property": "C235",
   "status": "proved",
   "theorems": [
    "Verif.Bond.C235_type"
   ],
   "note": ""
  },
  {
   "property": "C236",
   "status": "partial",
   "theorems": [
    "Verif.Bond.C236_late_partial",
    "Verif.Bond.C236_record",
    "Verif.Bond.C236_violated"
   ],
   "note": "The choice is made before the record is replaced (witness). Proved: the record is that of the new table, the choice that from the previous record."
  },
  {
   "property": "C237",
   "status": "partial",
   "theorems": [
    "Verif.Bond.C237_gone",
    "Verif.Bond.C237_alarm_partial",
    "Verif.Bond.C237_violated"
   ],
   "note": "The alarm is cleared when slaves appear although the port has not been given one (witness). Proved when there were slaves before."
  },
  {
   "property": "C238",
   "status": "partial",
   "theorems": [
    "Verif.Bond.C238_last_partial",
    "Verif.Bond.C238_violated"
   ],
   "note": "Only the result for the last instance counts (witness). Proved for that one."
  },
  {
   "property": "C239",
   "status": "partial",
   "theorems": [
    "Verif.Bond.C239_table_partial",
    "Verif.Bond.C239_run_partial",
    "Verif.Bond.C239_violated"
   ],
   "note": "The address of a local variable is kept (witness). Proved: exactly when that happens."
  },
  {
   "property": "C240",
   "status": "partial",
   "theorems": [
    "Verif.Bond.C240_timestamps_partial",
    "Verif.Bond.C240_violated"
   ],
   "note": "Not when the type of timestamps changes at the same time (witness). Proved while hardware timestamps stay in use."
  },
  {
   "property": "C241",
   "status": "proved",
   "theorems": [
    "Verif.Bond.C241_topology"
   ],
   "note": ""
  },
  {
   "property": "C242",
   "status": "proved",
   "theorems": [
    "Verif.PtpMod.C242_encode",
    "Verif.PtpMod.C242_special"
   ],
   "note": ""
  },
  {
   "property": "C243",
   "status": "proved",
   "theorems": [
    "Verif.PtpMod.C243_decode",
    "Verif.PtpMod.C243_roundtrip",
    "Verif.PtpMod.C243_monotone"
   ],
   "note": ""
  },
  {
   "property": "C244",
   "status": "partial",
   "theorems": [
    "Verif.PtpMod.C244_partial",
    "Verif.PtpMod.C244_class_partial",
    "Verif.PtpMod.C244_order_partial",
    "Verif.PtpMod.C244_violated"
   ],
   "note": "An unknown class is announced as 255, which is read as free-running (witness). Proved for the other classes, with the classification and the order for all values."
  },
  {
   "property": "C245",
   "status": "proved",
   "theorems": [
    "Verif.PtpMod.C245_text"
   ],
   "note": ""
  },
  {
   "property": "C246",
   "status": "proved",
   "theorems": [
    "Verif.PtpMod.C246_accept"
   ],
   "note": ""
  },
  {
   "property": "C247",
   "status": "proved",
   "theorems": [
    "Verif.PtpMod.C247_grouping"
   ],
   "note": ""
  },
  {
   "property": "C248",
   "status": "proved",
   "theorems": [
    "Verif.PtpMod.C248_failure",
    "Verif.PtpMod.C248_shutdown"
   ],
   "note": ""
  },
  {
   "property": "C249",
   "status": "proved",
   "theorems": [
    "Verif.PtpMod.C249_walk"
   ],
   "note": ""
  },
  {
   "property": "C250",
   "status": "proved",
   "theorems": [
    "Verif.PtpMod.C250_gm",
    "Verif.PtpMod.C250_leap",
    "Verif.PtpMod.C250_buffer"
   ],
   "note": ""
  },
  {
   "property": "C251",
   "status": "proved",
   "theorems": [
    "Verif.PtpMod.C251_control"
   ],
   "note": ""
  },
  {
   "property": "C252",
   "status": "partial",
   "theorems": [
    "Verif.PtpMod.C252_partial",
    "Verif.PtpMod.C252_violated"
   ],
   "note": "A change of traceability alone is not reported (witness). Proved for everything else."
  },
  {
   "property": "C253",
   "status": "partial",
   "theorems": [
    "Verif.PtpMod.C253_partial",
    "Verif.PtpMod.C253_violated"
   ],
   "note": "The tick that changes the synchronisation does not publish it (witness). Proved for alarms and selection, and that the synchronisation is at most one tick old."
  },
  {
   "property": "C254",
   "status": "partial",
   "theorems": [
    "Verif.PtpMod.C254_partial",
    "Verif.PtpMod.C254_violated"
   ],
   "note": "It is the offset found by the previous tick (witness). Proved: exactly that."
  },
  {
   "property": "C255",
   "status": "partial",
   "theorems": [
    "Verif.PtpMod.C255_partial",
    "Verif.PtpMod.C255_violated"
   ],
   "note": "Not if it is announced before the instance is selected (witness). Proved while the instance stays selected and a slave."
  },
  {
   "property": "C256",
   "status": "proved",
   "theorems": [
    "Verif.PtpMod.C256_synchronized"
   ],
   "note": ""
  },
  {
   "property": "C257",
   "status": "partial",
   "theorems": [
    "Verif.PtpMod.C257_partial",
    "Verif.PtpMod.C257_violated"
   ],
   "note": "The clustering score is not filled in (witness), and the offset only for a slave. Proved for all other fields."
  },
  {
   "property": "C258",
   "status": "partial",
   "theorems": [
    "Verif.PtpMod.C258_partial",
    "Verif.PtpMod.C258_recovery_partial",
    "Verif.PtpMod.C258_violated"
   ],
   "note": "A socket reopened during the update of the instances is missed if its number differs (witness). Proved when numbers are reused, and after the next change in all cases."
  },
  {
   "property": "C259",
   "status": "partial",
   "theorems": [
    "Verif.PtpMod.C259_partial",
    "Verif.PtpMod.C259_violated"
   ],
   "note": "A failed comparison counts as no difference for a sync instance (witness). Proved otherwise."
  },
  {
   "property": "C260",
   "status": "partial",
   "theorems": [
    "Verif.PtpMod.C260_partial",
    "Verif.PtpMod.C260_violated"
   ],
   "note": "With software timestamping the default for hardware is used (witness). Proved for hardware timestamping and configured thresholds."
  },
  {
   "property": "C261",
   "status": "partial",
   "theorems": [
    "Verif.PtpMod.C261_partial",
    "Verif.PtpMod.C261_violated"
   ],
   "note": "Not with several instances on the interface (witness). Proved for one."
  },
  {
   "property": "C262",
   "status": "proved",
   "theorems": [
    "Verif.Netlink.C262_table_follows_kernel"
   ],
   "note": ""
  },
  {
   "property": "C263",
   "status": "proved",
   "theorems": [
    "Verif.Netlink.C263_room_for_every_link"
   ],
   "note": "memory is available"
  },
  {
   "property": "C264",
   "status": "proved",
   "theorems": [
    "Verif.Netlink.C264_update_keeps_ethtool_and_team"
   ],
   "note": ""
  },
  {
   "property": "C265",
   "status": "partial",
   "theorems": [
    "Verif.Netlink.C265_violated",
    "Verif.Netlink.C265_master_as_announced_partial"
   ],
   "note": "false for teams; proved for all others"
  },
  {
   "property": "C266",
   "status": "proved",
   "theorems": [
    "Verif.Netlink.C266_bond_characteristics"
   ],
   "note": ""
  },
  {
   "property": "C267",
   "status": "partial",
   "theorems": [
    "Verif.Netlink.C267_violated",
    "Verif.Netlink.C267_options_apply_partial"
   ],
   "note": "false when an option lacks attributes; proved when all are complete"
  },
  {
   "property": "C268",
   "status": "partial",
   "theorems": [
    "Verif.Netlink.C268_violated",
    "Verif.Netlink.C268_bitset_read_partial"
   ],
   "note": "false for sizes within 31 of 2^32; proved for all others"
  },
  {
   "property": "C269",
   "status": "proved",
   "theorems": [
    "Verif.Netlink.C269_driver_statistics"
   ],
   "note": ""
  },
  {
   "property": "C270",
   "status": "proved",
   "theorems": [
    "Verif.Netlink.C270_timestamping_reply"
   ],
   "note": ""
  },
  {
   "property": "C271",
   "status": "partial",
   "theorems": [
    "Verif.Netlink.C271_violated",
    "Verif.Netlink.C271_datagram_handled_partial"
   ],
   "note": "false when a query is sent while the datagram is read; proved otherwise"
  },
  {
   "property": "C272",
   "status": "partial",
   "theorems": [
    "Verif.Netlink.C272_violated",
    "Verif.Netlink.C272_asked_or_remembered_partial"
   ],
   "note": "false when sending fails; proved otherwise"
  },
  {
   "property": "C273",
   "status": "partial",
   "theorems": [
    "Verif.Netlink.C273_violated",
    "Verif.Netlink.C273_scan_asks_once_partial"
   ],
   "note": "false between first announcement and first scan; proved from the first scan on"
  },
  {
   "property": "C274",
   "status": "proved",
   "theorems": [
    "Verif.Netlink.C274_events_exact"
   ],
   "note": ""
  },
  {
   "property": "C275",
   "status": "proved",
   "theorems": [
    "Verif.Netlink.C275_change_reported"
   ],
   "note": ""
  },
  {
   "property": "C276",
   "status": "partial",
   "theorems": [
    "Verif.Netlink.C276_violated",
    "Verif.Netlink.C276_servicing_safe_partial"
   ],
   "note": "false after an error in receiving; proved without"
  },
  {
   "property": "C277",
   "status": "proved",
   "theorems": [
    "Verif.Netlink.C277_publication"
   ],
   "note": "receiving does not fail"
  },
  {
   "property": "C278",
   "status": "proved",
   "theorems": [
    "Verif.Netlink.C278_nothing_published"
   ],
   "note": "receiving does not fail"
  },
  {
   "property": "C279",
   "status": "proved",
   "theorems": [
    "Verif.Netlink.C279_held_tables_kept"
   ],
   "note": "receiving does not fail"
  },
  {
   "property": "C280",
   "status": "partial",
   "theorems": [
    "Verif.Netlink.C280_violated",
    "Verif.Netlink.C280_versions_found_partial"
   ],
   "note": "false for unknown versions after four publications; proved for kept versions and before"
  },
  {
   "property": "C281",
   "status": "proved",
   "theorems": [
    "Verif.Netlink.C281_release_counts"
   ],
   "note": ""
  },
  {
   "property": "C282",
   "status": "proved",
   "theorems": [
    "Verif.Netlink.C282_refused_iff_held"
   ],
   "note": "receiving does not fail"
  },
  {
   "property": "C283",
   "status": "partial",
   "theorems": [
    "Verif.Netlink.C283_violated",
    "Verif.Netlink.C283_wait_partial"
   ],
   "note": "false when woken without a change; otherwise proved"
  },
  {
   "property": "C284",
   "status": "proved",
   "theorems": [
    "Verif.Netlink.C284_engine_safe"
   ],
   "note": "receiving does not fail"
  },
  {
   "property": "C285",
   "status": "proved",
   "theorems": [
    "Verif.Netlink.C285_references_are_holders"
   ],
   "note": "receiving does not fail"
  },
  {
   "property": "C286",
   "status": "proved",
   "theorems": [
    "Verif.Netlink.C286_delivered_once"
   ],
   "note": "receiving does not fail"
  },
  {
   "property": "C287",
   "status": "proved",
   "theorems": [
    "Verif.Netlink.C287_no_lost_update"
   ],
   "note": "receiving does not fail"
  },
  {
   "property": "C288",
   "status": "proved",
   "theorems": [
    "Verif.Netlink.C288_timer_publishes"
   ],
   "note": "receiving does not fail"
  },
  {
   "property": "C289",
   "status": "proved",
   "theorems": [
    "Verif.Netlink.C289_polling"
   ],
   "note": "receiving does not fail"
  },
  {
   "property": "C290",
   "status": "proved",
   "theorems": [
    "Verif.Netlink.C290_hotplug_exact"
   ],
   "note": "receiving does not fail"
  },
  {
   "property": "C291",
   "status": "partial",
   "theorems": [
    "Verif.Freerun.C291_violated",
    "Verif.Freerun.C291_search_ends_partial",
    "Verif.Freerun.C291_ends_iff"
   ],
   "note": "the search does not end if the link below a VLAN is not in the table or links are below themselves; proved for hierarchies, and that it ends exactly if the tree is finite"
  },
  {
   "property": "C292",
   "status": "proved",
   "theorems": [
    "Verif.Freerun.C292_best_clock",
    "Verif.Freerun.C292_one_result"
   ],
   "note": ""
  },
  {
   "property": "C293",
   "status": "proved",
   "theorems": [
    "Verif.Freerun.C293_own_clocks"
   ],
   "note": ""
  },
  {
   "property": "C294",
   "status": "proved",
   "theorems": [
    "Verif.Freerun.C294_start_fails"
   ],
   "note": ""
  },
  {
   "property": "C295",
   "status": "proved",
   "theorems": [
    "Verif.Freerun.C295_flags"
   ],
   "note": ""
  },
  {
   "property": "C296",
   "status": "proved",
   "theorems": [
    "Verif.Freerun.C296_handled_iff",
    "Verif.Freerun.C296_replied",
    "Verif.Freerun.C296_steps",
    "Verif.Freerun.C296_status",
    "Verif.Freerun.C296_saved"
   ],
   "note": ""
  },
  {
   "property": "C297",
   "status": "partial",
   "theorems": [
    "Verif.Freerun.C297_violated",
    "Verif.Freerun.C297_created_partial",
    "Verif.Freerun.C297_buffer"
   ],
   "note": "instances stay allocated if one does not start; proved otherwise"
  },
  {
   "property": "C298",
   "status": "proved",
   "theorems": [
    "Verif.Freerun.C298_traceability"
   ],
   "note": ""
  },
  {
   "property": "C299",
   "status": "proved",
   "theorems": [
    "Verif.SyncText.C299_text_fits",
    "Verif.SyncText.C299_unknown_bits"
   ],
   "note": "for masks with a known bit or none; a mask of unknown bits leaves the buffer unset, which is proved too"
  },
  {
   "property": "C300",
   "status": "proved",
   "theorems": [
    "Verif.SyncText.C300_read_back",
    "Verif.SyncText.C300_named_iff"
   ],
   "note": ""
  },
  {
   "property": "C301",
   "status": "partial",
   "theorems": [
    "Verif.SyncText.C301_violated",
    "Verif.SyncText.C301_json_partial"
   ],
   "note": "one name has a blank at its end; proved for the other alarms"
  },
  {
   "property": "C302",
   "status": "partial",
   "theorems": [
    "Verif.SyncText.C302_violated",
    "Verif.SyncText.C302_changes_partial"
   ],
   "note": "traceability is not compared; proved for the other characteristics"
  },
  {
   "property": "C303",
   "status": "proved",
   "theorems": [
    "Verif.Intf.C303_one_index",
    "Verif.Intf.C303_insert"
   ],
   "note": ""
  },
  {
   "property": "C304",
   "status": "partial",
   "theorems": [
    "Verif.Intf.C304_violated",
    "Verif.Intf.C304_found_partial"
   ],
   "note": "an interface that is replugged with another index is not found by its name; proved if new interfaces have names not seen before and names are taken only from interfaces that are gone"
  },
  {
   "property": "C305",
   "status": "partial",
   "theorems": [
    "Verif.Intf.C305_violated",
    "Verif.Intf.C305_ends_partial",
    "Verif.Intf.C305_hang_iff"
   ],
   "note": "two objects may become aliases of each other; proved unless an interface that has become an alias comes back"
  },
  {
   "property": "C306",
   "status": "proved",
   "theorems": [
    "Verif.Intf.C306_gone",
    "Verif.Intf.C306_there",
    "Verif.Intf.C306_either",
    "Verif.Intf.C306_removed"
   ],
   "note": ""
  },
  {
   "property": "C307",
   "status": "partial",
   "theorems": [
    "Verif.Intf.C307_violated",
    "Verif.Intf.C307_device_partial"
   ],
   "note": "the name is taken before it is refreshed; proved if it is known, and for the next request"
  },
  {
   "property": "C308",
   "status": "proved",
   "theorems": [
    "Verif.Intf.C308_enable"
   ],
   "note": ""
  },
  {
   "property": "C309",
   "status": "partial",
   "theorems": [
    "Verif.Intf.C309_violated",
    "Verif.Intf.C309_caps_partial",
    "Verif.Intf.C309_capable_partial"
   ],
   "note": "types of transmit stamps are not looked at; proved exactly for the other fields"
  },
  {
   "property": "C310",
   "status": "proved",
   "theorems": [
    "Verif.Intf.C310_suitable",
    "Verif.Intf.C310_unsuitable"
   ],
   "note": ""
  },
  {
   "property": "C311",
   "status": "partial",
   "theorems": [
    "Verif.Intf.C311_violated",
    "Verif.Intf.C311_table_partial",
    "Verif.Intf.C311_complete_partial"
   ],
   "note": "an assertion fails if the device does not support a request; proved for links that netlink tells all about, and for every start that succeeds"
  },
  {
   "property": "C312",
   "status": "partial",
   "theorems": [
    "Verif.Intf.C312_violated",
    "Verif.Intf.C312_once_partial"
   ],
   "note": "a change of a link allocates anew; proved without changes"
  },
  {
   "property": "C313",
   "status": "partial",
   "theorems": [
    "Verif.Intf.C313_violated",
    "Verif.Intf.C313_start_partial",
    "Verif.Intf.C313_permanent"
   ],
   "note": "ports that come and go may have different numbers; proved at start-up, and that numbers stay"
  },
  {
   "property": "C314",
   "status": "proved",
   "theorems": [
    "Verif.Priv.C314",
    "Verif.Priv.C314_serves"
   ],
   "note": ""
  },
  {
   "property": "C315",
   "status": "partial",
   "theorems": [
    "Verif.Priv.C315_violated",
    "Verif.Priv.C315_partial"
   ],
   "note": "after the connection is closed the helper acts on what its memory holds; proved for turns that receive a request"
  },
  {
   "property": "C316",
   "status": "partial",
   "theorems": [
    "Verif.Priv.C316_violated",
    "Verif.Priv.C316_forever",
    "Verif.Priv.C316_partial"
   ],
   "note": "with SIGPIPE ignored the helper repeats the last request for ever; proved where the signal has its default effect"
  },
  {
   "property": "C317",
   "status": "partial",
   "theorems": [
    "Verif.Priv.C317_violated",
    "Verif.Priv.C317_partial"
   ],
   "note": "a connection in progress leaves its socket open; proved in all other cases"
  },
  {
   "property": "C318",
   "status": "proved",
   "theorems": [
    "Verif.Priv.C318"
   ],
   "note": ""
  },
  {
   "property": "C319",
   "status": "partial",
   "theorems": [
    "Verif.Priv.C319_violated",
    "Verif.Priv.C319_partial",
    "Verif.Priv.C319_helper"
   ],
   "note": "if the helper dies before it answers, descriptor 0 is returned; proved in all other cases"
  },
  {
   "property": "C320",
   "status": "partial",
   "theorems": [
    "Verif.Priv.C320_violated",
    "Verif.Priv.C320_partial"
   ],
   "note": "if the helper dies before it answers, success is reported; proved in all other cases"
  },
  {
   "property": "C321",
   "status": "partial",
   "theorems": [
    "Verif.Priv.C321_violated",
    "Verif.Priv.C321_partial"
   ],
   "note": "a helper that cannot be executed counts as started; proved in all other cases"
  },
  {
   "property": "C322",
   "status": "partial",
   "theorems": [
    "Verif.Priv.C322_violated",
    "Verif.Priv.C322_partial"
   ],
   "note": "the name of the step goes to a local variable; proved for the error, and for the step without a helper"
  },
  {
   "property": "C323",
   "status": "partial",
   "theorems": [
    "Verif.Priv.C323_violated",
    "Verif.Priv.C323_partial",
    "Verif.Priv.C323_one_at_a_time"
   ],
   "note": "a failed sending leaves the lock held; proved as long as none has failed"
  },
  {
   "property": "C324",
   "status": "partial",
   "theorems": [
    "Verif.Priv.C324_violated",
    "Verif.Priv.C324_partial"
   ],
   "note": "sending to a helper that has gone raises SIGPIPE; proved where it is ignored and for other failures"
  },
  {
   "property": "C325",
   "status": "proved",
   "theorems": [
    "Verif.Priv.C325"
   ],
   "note": ""
  },
  {
   "property": "C326",
   "status": "partial",
   "theorems": [
    "Verif.Priv.C326_violated",
    "Verif.Priv.C326_partial"
   ],
   "note": "lines after a section without its last line are deleted; proved for files of whole lines and whole sections"
  },
  {
   "property": "C327",
   "status": "partial",
   "theorems": [
    "Verif.Priv.C327_violated",
    "Verif.Priv.C327_partial",
    "Verif.Priv.C327_comment"
   ],
   "note": "in a file without a newline at the end the options are not seen; proved for files of whole lines"
  },
  {
   "property": "C328",
   "status": "partial",
   "theorems": [
    "Verif.Priv.C328_violated",
    "Verif.Priv.C328_partial"
   ],
   "note": "a file without a newline at the end that fills whole pages has no terminator; proved in all other cases"
  },
  {
   "property": "C329",
   "status": "partial",
   "theorems": [
    "Verif.Priv.C329_violated",
    "Verif.Priv.C329_partial"
   ],
   "note": "a status is compared with an exit code, so that service is never tried; proved with systemctl"
  },
  {
   "property": "C330",
   "status": "partial",
   "theorems": [
    "Verif.Priv.C330_violated",
    "Verif.Priv.C330_partial"
   ],
   "note": "failing to make a stream counts as success; proved in all other cases"
  },
  {
   "property": "C331",
   "status": "proved",
   "theorems": [
    "Verif.PtpConf.C331_limits"
   ],
   "note": ""
  },
  {
   "property": "C332",
   "status": "partial",
   "theorems": [
    "Verif.PtpConf.C332_violated",
    "Verif.PtpConf.C332_partial"
   ],
   "note": "the profile default-p2p leaves the end-to-end mechanism; proved where no profile is named or a mechanism follows it"
  },
  {
   "property": "C333",
   "status": "proved",
   "theorems": [
    "Verif.PtpConf.C333_capabilities"
   ],
   "note": ""
  },
  {
   "property": "C334",
   "status": "proved",
   "theorems": [
    "Verif.PtpConf.C334_modes",
    "Verif.PtpConf.C334_utc"
   ],
   "note": ""
  },
  {
   "property": "C335",
   "status": "proved",
   "theorems": [
    "Verif.PtpConf.C335_sets",
    "Verif.PtpConf.C335_only",
    "Verif.PtpConf.C335_all",
    "Verif.PtpConf.C335_single"
   ],
   "note": "the mechanism and the capabilities are accepted subject to profile and version, see C332 and C333"
  },
  {
   "property": "C336",
   "status": "proved",
   "theorems": [
    "Verif.PtpConf.C336_numbers"
   ],
   "note": ""
  },
  {
   "property": "C337",
   "status": "proved",
   "theorems": [
    "Verif.PtpConf.C337_own_setting"
   ],
   "note": "ptp_mgmt_acl_permit is C338"
  },
  {
   "property": "C338",
   "status": "partial",
   "theorems": [
    "Verif.PtpConf.C338_violated",
    "Verif.PtpConf.C338_partial"
   ],
   "note": "the option sets the list for timing messages; proved for the other older name"
  },
  {
   "property": "C339",
   "status": "partial",
   "theorems": [
    "Verif.PtpConf.C339_violated",
    "Verif.PtpConf.C339_partial",
    "Verif.PtpConf.C339_sections"
   ],
   "note": "a monitoring station for all instances aborts if one of them has six; proved without such lines"
  },
  {
   "property": "C340",
   "status": "proved",
   "theorems": [
    "Verif.PtpConf.C340_lists"
   ],
   "note": ""
  },
  {
   "property": "C341",
   "status": "proved",
   "theorems": [
    "Verif.PtpConf.C341_monitors"
   ],
   "note": "resolution of names is a parameter"
  },
  {
   "property": "C342",
   "status": "partial",
   "theorems": [
    "Verif.PtpConf.C342_violated",
    "Verif.PtpConf.C342_partial"
   ],
   "note": "nan is accepted; proved for all other values"
  },
  {
   "property": "C343",
   "status": "partial",
   "theorems": [
    "Verif.PtpConf.C343_violated",
    "Verif.PtpConf.C343_partial"
   ],
   "note": "longer names are cut to 15 characters; proved for names up to that length"
  },
  {
   "property": "C344",
   "status": "partial",
   "theorems": [
    "Verif.PtpConf.C344_violated",
    "Verif.PtpConf.C344_overflow",
    "Verif.PtpConf.C344_partial"
   ],
   "note": "what follows a number is ignored and longer numbers lose their upper bits; proved for numerals of 32 bits"
  },
  {
   "property": "C345",
   "status": "proved",
   "theorems": [
    "Verif.Mcast.C345_registration"
   ],
   "note": "Any interleaving; register kept from calls and return codes"
  },
  {
   "property": "C346",
   "status": "proved",
   "theorems": [
    "Verif.Mcast.C346_destroy"
   ],
   "note": ""
  },
  {
   "property": "C347",
   "status": "proved",
   "theorems": [
    "Verif.Mcast.C347_delivery"
   ],
   "note": "For a call that is not interrupted; C348 to C351 for interleavings"
  },
  {
   "property": "C348",
   "status": "proved",
   "theorems": [
    "Verif.Mcast.C348_messages"
   ],
   "note": ""
  },
  {
   "property": "C349",
   "status": "partial",
   "theorems": [
    "Verif.Mcast.C349_violated",
    "Verif.Mcast.C349_failure_partial"
   ],
   "note": "Events are posted before messages are allocated; no message is sent and those allocated are freed"
  },
  {
   "property": "C350",
   "status": "partial",
   "theorems": [
    "Verif.Mcast.C350_violated",
    "Verif.Mcast.C350_groups_partial"
   ],
   "note": "The group is looked up without the lock; proved if senders are registered as publishers and arrays can be allocated"
  },
  {
   "property": "C351",
   "status": "partial",
   "theorems": [
    "Verif.Mcast.C351_violated",
    "Verif.Mcast.C351_recipients_partial"
   ],
   "note": "Recipients may leave after they were gathered; proved for the time of gathering, within the same call"
  },
  {
   "property": "C352",
   "status": "proved",
   "theorems": [
    "Verif.Mcast.C352_writers"
   ],
   "note": ""
  },
  {
   "property": "C353",
   "status": "partial",
   "theorems": [
    "Verif.GenConf.C353_violated",
    "Verif.GenConf.C353_verbose_raises_partial"
   ],
   "note": "The servo is lowered to 1 by two -v if threading is 0; proved for the other levels"
  },
  {
   "property": "C354",
   "status": "partial",
   "theorems": [
    "Verif.GenConf.C354_violated",
    "Verif.GenConf.C354_start_levels_partial"
   ],
   "note": "Servo and threading fall short with two -v; proved for the other levels, and for all with three if the file does not set threading"
  },
  {
   "property": "C355",
   "status": "partial",
   "theorems": [
    "Verif.GenConf.C355_violated",
    "Verif.GenConf.C355_trace_level_partial"
   ],
   "note": "Three parameters fail an assertion; proved for at most two"
  },
  {
   "property": "C356",
   "status": "partial",
   "theorems": [
    "Verif.GenConf.C356_violated",
    "Verif.GenConf.C356_user_partial"
   ],
   "note": "Numbers are truncated to 32 bits, so that 4294967296 is root; proved for names in the database and numbers of 32 bits"
  },
  {
   "property": "C357",
   "status": "partial",
   "theorems": [
    "Verif.GenConf.C357_violated",
    "Verif.GenConf.C357_numbers_partial"
   ],
   "note": "A number without a record is refused; proved if there is a record or a known group is given"
  },
  {
   "property": "C358",
   "status": "partial",
   "theorems": [
    "Verif.GenConf.C358_violated",
    "Verif.GenConf.C358_answered_partial"
   ],
   "note": "Other errors of the lookup lead to an uninitialised record; proved for databases that answer"
  },
  {
   "property": "C359",
   "status": "partial",
   "theorems": [
    "Verif.GenConf.C359_violated",
    "Verif.GenConf.C359_names_partial"
   ],
   "note": "Names are cut after 23 characters; proved for shorter names"
  },
  {
   "property": "C360",
   "status": "partial",
   "theorems": [
    "Verif.GenConf.C360_violated",
    "Verif.GenConf.C360_last_list_partial"
   ],
   "note": "The flag for all interfaces is never cleared; proved if no earlier list had it"
  },
  {
   "property": "C361",
   "status": "partial",
   "theorems": [
    "Verif.GenConf.C361_violated",
    "Verif.GenConf.C361_bits_partial"
   ],
   "note": "Text after the octets is ignored; proved for octets written with two digits"
  },
  {
   "property": "C362",
   "status": "partial",
   "theorems": [
    "Verif.GenConf.C362_violated",
    "Verif.GenConf.C362_last_bits_partial"
   ],
   "note": "Octets of a longer earlier option remain; proved if the second has at least as many"
  },
  {
   "property": "C363",
   "status": "partial",
   "theorems": [
    "Verif.GenConf.C363_violated",
    "Verif.GenConf.C363_answered_partial"
   ],
   "note": "An instance of another module named crny0 fails an assertion; proved otherwise"
  },
  {
   "property": "C364",
   "status": "proved",
   "theorems": [
    "Verif.GenConf.C364_instances"
   ],
   "note": ""
  },
  {
   "property": "C365",
   "status": "partial",
   "theorems": [
    "Verif.GenConf.C365_violated",
    "Verif.GenConf.C365_limits_partial"
   ],
   "note": "The text nan passes the range checks; proved but for settings that are not a number"
  },
  {
   "property": "C366",
   "status": "proved",
   "theorems": [
    "Verif.GenConf.C366_words"
   ],
   "note": ""
  },
  {
   "property": "C367",
   "status": "proved",
   "theorems": [
    "Verif.GenConf.C367_last_option"
   ],
   "note": ""
  },
  {
   "property": "C368",
   "status": "proved",
   "theorems": [
    "Verif.GenConf.C368_ignore_critical"
   ],
   "note": ""
  },
  {
   "property": "C369",
   "status": "proved",
   "theorems": [
    "Verif.GenConf.C369_answered"
   ],
   "note": ""
  },
  {
   "property": "C370",
   "status": "proved",
   "theorems": [
    "Verif.GenConf.C370_numbers"
   ],
   "note": ""
  },
  {
   "property": "C371",
   "status": "proved",
   "theorems": [
    "Verif.GenConf.C371_names"
   ],
   "note": ""
  },
  {
   "property": "C372",
   "status": "proved",
   "theorems": [
    "Verif.GenConf.C372_intervals"
   ],
   "note": ""
  },
  {
   "property": "C373",
   "status": "partial",
   "theorems": [
    "Verif.PidLock.C373_violated",
    "Verif.PidLock.C373_one_daemon_partial",
    "Verif.PidLock.C373_visible_partial"
   ],
   "note": "lock_delete closes before it unlinks, and lock_create does not check that the file locked is still at the path; processes that the search for running programs does not see (another PID name space, or an executable replaced by an upgrade) can both run; proved if the file is removed only while no process has it open, and if the search sees all processes"
  },
  {
   "property": "C374",
   "status": "proved",
   "theorems": [
    "Verif.PidLock.C374_left_behind"
   ],
   "note": ""
  },
  {
   "property": "C375",
   "status": "proved",
   "theorems": [
    "Verif.PidLock.C375_refused"
   ],
   "note": ""
  },
  {
   "property": "C376",
   "status": "partial",
   "theorems": [
    "Verif.PidLock.C376_violated",
    "Verif.PidLock.C376_removed_partial"
   ],
   "note": "A failed daemon() removes the file again; proved if daemon() does not fail"
  },
  {
   "property": "C377",
   "status": "proved",
   "theorems": [
    "Verif.Start.C377_capabilities"
   ],
   "note": ""
  },
  {
   "property": "C378",
   "status": "partial",
   "theorems": [
    "Verif.Start.C378_violated",
    "Verif.Start.C378_identity_partial",
    "Verif.Start.C378_rest_partial"
   ],
   "note": "With user 0 the groups are not set, and group 0 is not set; proved if both are not 0, and what stays as it was otherwise"
  },
  {
   "property": "C379",
   "status": "proved",
   "theorems": [
    "Verif.Start.C379_root_starts"
   ],
   "note": ""
  },
  {
   "property": "C380",
   "status": "proved",
   "theorems": [
    "Verif.Start.C380_no_way_back"
   ],
   "note": "The rules of the kernel are those of capabilities(7)"
  },
  {
   "property": "C381",
   "status": "partial",
   "theorems": [
    "Verif.Start.C381_violated",
    "Verif.Start.C381_ready_partial"
   ],
   "note": "The error told is always 0; proved that READY=1 is told exactly if the daemon has started"
  },
  {
   "property": "C382",
   "status": "partial",
   "theorems": [
    "Verif.Start.C382_violated",
    "Verif.Start.C382_abstract_never",
    "Verif.Start.C382_path_partial"
   ],
   "note": "Never right for abstract names; proved for paths"
  },
  {
   "property": "C383",
   "status": "proved",
   "theorems": [
    "Verif.Exit.C383_reason"
   ],
   "note": ""
  },
  {
   "property": "C384",
   "status": "proved",
   "theorems": [
    "Verif.Exit.C384_at_once"
   ],
   "note": ""
  },
  {
   "property": "C385",
   "status": "partial",
   "theorems": [
    "Verif.Exit.C385_violated",
    "Verif.Exit.C385_request_partial"
   ],
   "note": "The last reason counts: if the helper gets the signal as well, its end is taken as a failure; proved if all reasons are requests or ends without error"
  },
  {
   "property": "C386",
   "status": "proved",
   "theorems": [
    "Verif.Exit.C386_failure"
   ],
   "note": ""
  },
  {
   "property": "C387",
   "status": "proved",
   "theorems": [
    "Verif.Exit.C387_passed_on"
   ],
   "note": ""
  },
  {
   "property": "C388",
   "status": "partial",
   "theorems": [
    "Verif.Log.C388_violated",
    "Verif.Log.C388_whole_partial",
    "Verif.Log.C388_no_flush"
   ],
   "note": "The room left is compared with 512 and twice the line just written, not with the next line; proved if no line is longer than 512 or twice the line before. After a line that does not fit the room is computed as very large and nothing is flushed until the next interval"
  },
  {
   "property": "C389",
   "status": "partial",
   "theorems": [
    "Verif.Log.C389_violated",
    "Verif.Log.C389_complete_partial"
   ],
   "note": "Errors of writing are not checked before the old file is replaced; proved if no write fails"
  },
  {
   "property": "C390",
   "status": "partial",
   "theorems": [
    "Verif.Log.C390_violated",
    "Verif.Log.C390_own_partial"
   ],
   "note": "If the log cannot be opened sfptpd_log_close is called twice; proved if it can be opened and paths can be made"
  },
  {
   "property": "C391",
   "status": "proved",
   "theorems": [
    "Verif.Log.C391_new_files"
   ],
   "note": ""
  },
  {
   "property": "C392",
   "status": "proved",
   "theorems": [
    "Verif.Gps.C392_state"
   ],
   "note": ""
  },
  {
   "property": "C393",
   "status": "partial",
   "theorems": [
    "Verif.Gps.C393_violated",
    "Verif.Gps.C393_unnoticed",
    "Verif.Gps.C393_no_fix_partial"
   ],
   "note": "The states disabled and faulty are always overwritten; with a fix a failed read leaves a slave. Proved: no failed read changes anything, and without a fix the instance is no slave"
  },
  {
   "property": "C394",
   "status": "proved",
   "theorems": [
    "Verif.Gps.C394_engine"
   ],
   "note": ""
  },
  {
   "property": "C395",
   "status": "partial",
   "theorems": [
    "Verif.Gps.C395_violated",
    "Verif.Gps.C395_slave_partial"
   ],
   "note": "The offset given to the convergence measure is 0; proved: synchronized only while a slave"
  },
  {
   "property": "C396",
   "status": "partial",
   "theorems": [
    "Verif.Gps.C396_violated",
    "Verif.Gps.C396_next_partial"
   ],
   "note": "A step only writes a message; proved: the next report with times and a fix gives the offset"
  },
  {
   "property": "C397",
   "status": "partial",
   "theorems": [
    "Verif.Gps.C397_violated",
    "Verif.Gps.C397_offset_partial"
   ],
   "note": "With a fix but no times yet the instance is a slave with offset 0; proved: the offset is the last measured since the fix, or 0"
  },
  {
   "property": "C398",
   "status": "partial",
   "theorems": [
    "Verif.Gps.C398_violated",
    "Verif.Gps.C398_accuracy_partial"
   ],
   "note": "A report that changes the accuracy only is not stored; proved if the offset changes with it"
  }
 ]
}