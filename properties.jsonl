{"id": "C01", "title": "Timestamp addition and subtraction are exact", "statement": "Adding or subtracting two normalised high-resolution timestamps gives a normalised timestamp (0 <= nanoseconds < 10^9) whose value, counted in units of 2^-32 ns, is exactly the sum or difference of the operands' values, whenever neither the sum or difference of the seconds fields nor the seconds of the exact result overflow 64 bits.", "quantifier": "all pairs of normalised timestamps, including negative seconds and all 2^32 fractional parts", "why_tests_cant": "The carry/borrow chain has ~2^190 operand pairs; borrow across seconds with fractional parts is only hit by specific combinations.", "anchors": ["src/sfptpd_time.c:sfptpd_time_normalise", "src/sfptpd_time.c:sfptpd_time_add", "src/sfptpd_time.c:sfptpd_time_subtract", "src/sfptpd_time.c:sfptpd_time_negate"]}
{"id": "C02", "title": "Timestamp comparison is the numeric order", "statement": "The three-way comparison of two normalised timestamps has the sign of the difference of their values; the greater-or-equal test agrees with it; hence comparison is a total order and equality holds only for identical timestamps.", "quantifier": "all pairs of normalised timestamps", "why_tests_cant": "Order laws (totality, transitivity, agreement with subtraction) range over all pairs and triples.", "anchors": ["src/sfptpd_time.c:sfptpd_time_cmp", "src/sfptpd_time.c:sfptpd_time_is_greater_or_equal", "src/include/sfptpd_time.h:sfptpd_time_is_zero"]}
{"id": "C03", "title": "Integer nanoseconds convert to a timestamp of the same value", "statement": "Converting any signed 64-bit count of nanoseconds to a timestamp gives a normalised timestamp with exactly that value.", "quantifier": "all signed 64-bit nanosecond counts", "why_tests_cant": "Failures appear only beyond 2^31 ns, 2^32 ns or below -10^9 ns, values that ordinary test vectors do not use.", "anchors": ["src/include/sfptpd_time.h:sfptpd_time_from_ns"]}
{"id": "C04", "title": "Correction-field conversion round-trips and saturates", "statement": "A 64-bit fixed-point correction field (units of 2^-16 ns) converted to a timestamp and back is unchanged, and a timestamp too large for the field converts to the saturated maximum rather than to a wrong value of the opposite sign.", "quantifier": "all 64-bit correction fields and all normalised timestamps", "why_tests_cant": "The whole 64-bit range and the saturation boundary matter; a test checks a few values.", "anchors": ["src/include/sfptpd_time.h:sfptpd_time_from_ns16", "src/include/sfptpd_time.h:sfptpd_time_to_ns16"]}
{"id": "C05", "title": "Internal and wire timestamps convert losslessly", "statement": "A non-negative internal timestamp with seconds below 2^48 survives conversion to the PTP wire timestamp plus correction remainder and back, up to the 2^-16 ns resolution of the correction field; a negative timestamp is refused.", "quantifier": "all normalised timestamps", "why_tests_cant": "Round-trip law over an astronomically large domain.", "anchors": ["src/ptp/ptpd2/arith.c:fromInternalTime", "src/ptp/ptpd2/ptpd.h:toInternalTime"]}
{"id": "C06", "title": "Best-instance election returns a best instance regardless of list order", "statement": "For any policy (ordered rule list) and any set of sync instances of which at most one is manually selected, the election returns an instance that no other instance beats under the policy, and the answer does not depend on the order in which the instances are listed.", "quantifier": "all policies, all instance status vectors, all permutations of the instance list", "why_tests_cant": "Order independence quantifies over all permutations and needs transitivity of the comparison for every policy.", "anchors": ["src/sfptpd_bic.c:sfptpd_bic_select", "src/sfptpd_bic.c:sfptpd_bic_choose"]}
{"id": "C07", "title": "Instance comparison is a strict total order for every policy", "statement": "For every rule list ending in the tie-break, the pairwise preference between two distinct instances (at most one manually selected) is total, antisymmetric and transitive, so sorting by it is well defined.", "quantifier": "all policies, all triples of instances", "why_tests_cant": "Total-order laws over all triples and all policies.", "anchors": ["src/sfptpd_bic.c:sfptpd_bic_select"]}
{"id": "C08", "title": "The BMC data-set comparison is a consistent ordering", "statement": "Comparing two announce data sets in either order gives mirror-image verdicts, and the best of a set of masters does not depend on the order they were heard.", "quantifier": "all pairs/triples of announce data sets and all receiving port identities", "why_tests_cant": "Antisymmetry and transitivity range over all data-set pairs; the failing shapes need particular stepsRemoved values.", "anchors": ["src/ptp/ptpd2/bmc.c:bmcDataSetComparison", "src/ptp/ptpd2/bmc.c:bmc"]}
{"id": "C09", "title": "A slave-only clock never chooses to be master or passive", "statement": "A port configured slave-only never receives the MASTER or PASSIVE recommendation from the state decision, whatever its own data set and whatever masters it hears; and a timer tick never leaves it in MASTER.", "quantifier": "all local data sets, all announce data sets, all port states", "why_tests_cant": "Safety over all inputs of the state decision.", "anchors": ["src/ptp/ptpd2/bmc.c:bmcStateDecision", "src/ptp/ptpd2/bmc.c:bmc", "src/ptp/ptpd2/protocol.c:doTimerTick"]}
{"id": "C10", "title": "Only qualified masters are elected", "statement": "A foreign master is eligible for election only if at least FOREIGN_MASTER_THRESHOLD announces from it lie inside the qualification window ending now, and an eligible master is preferred to an ineligible one.", "quantifier": "all announce arrival histories", "why_tests_cant": "Quantifies over all arrival-time histories of a ring buffer.", "anchors": ["src/ptp/ptpd2/bmc.c:getQualification", "src/ptp/ptpd2/foreign.c:recordForeignMasterAnnounce", "src/ptp/ptpd2/foreign.c:doesForeignMasterLatestAnnounceQualify"]}
{"id": "C11", "title": "The foreign master table stays consistent under any history", "statement": "After any sequence of announces and expiries, the table never holds more records than its capacity, never holds two records for one port identity, an announce from a known master updates that master's record, and expiry removes exactly the records whose latest announce is older than the threshold.", "quantifier": "all sequences of announce and expiry operations, all capacities", "why_tests_cant": "Invariant over unbounded histories; the failing ones need a particular best index after an expiry.", "anchors": ["src/ptp/ptpd2/foreign.c:findForeignMasterRecord", "src/ptp/ptpd2/foreign.c:insertIntoForeignMasterDS", "src/ptp/ptpd2/foreign.c:expireForeignMasterRecords"]}
{"id": "C12", "title": "The FIR filter outputs the mean of the most recent samples", "statement": "After any sequence of samples since reset, the filter output is the arithmetic mean of the last min(n, stiffness) samples, so it never leaves the range spanned by them.", "quantifier": "all sample sequences, all stiffness values", "why_tests_cant": "Ring-buffer behaviour after arbitrarily many samples, including wrap-around.", "anchors": ["src/sfptpd_filter.c:sfptpd_fir_filter_reset", "src/sfptpd_filter.c:sfptpd_fir_filter_update"]}
{"id": "C13", "title": "The smallest-sample filter returns the smallest aged sample", "statement": "After any sequence of updates the filter returns the held sample with the least path delay plus age penalty among those not older than the timeout and with non-negative delay, or the newest sample if there is none, and holds exactly the most recent samples since the last reset, up to its size.", "quantifier": "all update sequences, sizes and ageing coefficients", "why_tests_cant": "Ring-buffer invariant over unbounded histories.", "anchors": ["src/sfptpd_filter.c:sfptpd_smallest_filter_update"]}
{"id": "C14", "title": "The notch filter accepts exactly the values in its band", "statement": "A value is accepted (result 0) exactly when its distance from the configured midpoint is at most the configured width, otherwise it is refused with ERANGE.", "quantifier": "all values, midpoints and widths", "why_tests_cant": "Boundary behaviour over a continuum of values.", "anchors": ["src/sfptpd_filter.c:sfptpd_notch_filter_update"]}
{"id": "C15", "title": "The PID integral term never exceeds its configured limit", "statement": "With a positive integral limit, after any sequence of updates, resets and gain changes the integral contribution lies in [-limit, limit], and the averaged interval stays between the smallest and largest of the intervals configured and those elapsed between updates.", "quantifier": "all sequences of PID operations", "why_tests_cant": "Invariant over unbounded histories.", "anchors": ["src/sfptpd_filter.c:sfptpd_pid_filter_update"]}
{"id": "C16", "title": "Bounded string copy always terminates and never overruns", "statement": "The bounded copy writes at most n bytes, always terminates the destination when n > 0, and the result is the longest prefix of the source that fits.", "quantifier": "all source strings and all sizes", "why_tests_cant": "Every length relation including equal and zero.", "anchors": ["src/sfptpd_misc.c:sfptpd_strncpy"]}
{"id": "C17", "title": "The hash table behaves as a finite map", "statement": "After any sequence of add, search-and-update, and clear operations, looking up a key returns the most recently stored entry for that key and nothing for a key not stored; the reported number of entries is the number of distinct keys; capacity limits are enforced; iteration visits every entry exactly once.", "quantifier": "all operation histories, all hash functions, all key sets including full collisions", "why_tests_cant": "Refinement to a map for every history and collision pattern.", "anchors": ["src/sfptpd_misc.c:sfptpd_ht_add", "src/sfptpd_misc.c:sfptpd_ht_find", "src/sfptpd_misc.c:sfptpd_ht_first", "src/sfptpd_misc.c:sfptpd_ht_next"]}
{"id": "C18", "title": "The in-memory database returns exactly the live matching records", "statement": "After any sequence of inserts, updates and deletes, a query returns exactly the records currently stored that satisfy the selection; deleting removes exactly those; the reported count equals their number.", "quantifier": "all operation histories on both store back ends, all selections", "why_tests_cant": "Refinement of slot allocation with a free list over unbounded histories.", "anchors": ["src/sfptpd_db.c:array_insert", "src/sfptpd_db.c:array_delete", "src/sfptpd_db.c:array_foreach", "src/sfptpd_db.c:sfptpd_db_table_query_impl"]}
{"id": "C19", "title": "Database record slots are never shared", "statement": "No two live records of an array table ever occupy the same slot, a newly inserted record never overwrites a live one, and the free list never contains a live slot.", "quantifier": "all histories of insert and delete, all initial capacities", "why_tests_cant": "Memory-safety invariant over unbounded histories.", "anchors": ["src/sfptpd_db.c:array_insert", "src/sfptpd_db.c:array_delete"]}
{"id": "C20", "title": "Range statistics report the true extremes and mean", "statement": "After any sequence of samples in a period, the reported minimum, maximum, count and mean are those of exactly the qualified samples of that period.", "quantifier": "all sample sequences", "why_tests_cant": "Fold over arbitrarily long sequences.", "anchors": ["src/sfptpd_statistics.c:sfptpd_stats_range_update", "src/sfptpd_statistics.c:sfptpd_stats_range_add"]}
{"id": "C21", "title": "Count statistics match the samples supplied", "statement": "After any sequence of updates in a period the reported total and sample count equal the sums over the updates supplied.", "quantifier": "all update sequences", "why_tests_cant": "Fold over arbitrarily long sequences with a sample-count argument that tests always set to one.", "anchors": ["src/sfptpd_statistics.c:sfptpd_stats_count_update", "src/sfptpd_statistics.c:sfptpd_stats_collection_update_count_samples"]}
{"id": "C22", "title": "Windowed standard deviation equals the definition", "statement": "After any mix of adding and removing previously added samples, the computed deviation equals the standard deviation of the samples currently included (exact arithmetic).", "quantifier": "all add/remove sequences", "why_tests_cant": "Incremental algorithm versus definition over all histories.", "anchors": ["src/sfptpd_statistics.c:sfptpd_stats_std_dev_add_sample", "src/sfptpd_statistics.c:sfptpd_stats_std_dev_remove_sample"]}
{"id": "C23", "title": "Convergence is declared only after a full settling period", "statement": "Convergence is reported exactly when the offset has stayed within the limit for the whole configured settling interval, and any excursion beyond the limit or reset restarts the interval.", "quantifier": "all update/reset histories with non-decreasing time", "why_tests_cant": "Temporal property over unbounded histories.", "anchors": ["src/sfptpd_statistics.c:sfptpd_stats_convergence_update"]}
{"id": "C24", "title": "Statistics collection type checks are exact", "statement": "An update or query through a collection succeeds only for an identifier that was added with the matching type; otherwise the documented error is returned and nothing changes; adding an identifier twice is refused.", "quantifier": "all histories of collection operations, all identifiers", "why_tests_cant": "All identifiers including those beyond the current capacity, after any growth history.", "anchors": ["src/sfptpd_statistics.c:sfptpd_stats_collection_add", "src/sfptpd_statistics.c:stats_collection_type_check"]}
{"id": "C25", "title": "Clock comparison never uses samples older than the configured limits", "statement": "A successful comparison through the clock feed uses samples no older than the subscriber's maximum age, taken within the maximum age difference of each other, and later than the last freshness demand.", "quantifier": "all sample histories, ages, limits and orders of the two clocks' samples", "why_tests_cant": "Needs all relative timings of two independent sample streams.", "anchors": ["src/sfptpd_clockfeed.c:sfptpd_clockfeed_compare", "src/sfptpd_clockfeed.c:clockfeed_compare_to_sys", "src/sfptpd_clockfeed.c:sfptpd_clockfeed_require_fresh"]}
{"id": "C26", "title": "A clock source is released only when unused", "statement": "For any history of clock additions, removals, subscriptions and unsubscriptions, a feed source is freed only after its clock was removed and its last subscription was dropped, and no live subscription ever refers to a freed source.", "quantifier": "all interleavings of add, remove, subscribe and unsubscribe messages", "why_tests_cant": "Use-after-free freedom over unbounded histories.", "anchors": ["src/sfptpd_clockfeed.c:clockfeed_on_remove_clock", "src/sfptpd_clockfeed.c:clockfeed_on_unsubscribe", "src/sfptpd_clockfeed.c:clockfeed_reap_zombies"]}
{"id": "C27", "title": "A configuration line tokenises back to the intended words", "statement": "For any list of words, the line obtained by quoting and escaping them and joining with white space tokenises to exactly those words; comments are ignored; tokens beyond the maximum are never written.", "quantifier": "all word lists (any characters except NUL), all lines", "why_tests_cant": "Escape and quote handling over all strings.", "anchors": ["src/sfptpd_config.c:tokenize"]}
{"id": "C28", "title": "Configuration option argument counts are enforced", "statement": "An option is applied only if the number of parameters on the line satisfies the option's declared arity (exact or minimum); otherwise the line is rejected with an error and the handler is not called.", "quantifier": "all option tables and all token lists", "why_tests_cant": "All counts against all declared arities.", "anchors": ["src/sfptpd_config.c:config_parse_option"]}
{"id": "C29", "title": "Message pools conserve messages", "statement": "At any time every message of a pool is either on the free queue or owned by exactly one holder; allocation never returns a message already in use; the free counter equals the number of messages on the free queue.", "quantifier": "all histories of allocate, free, send, reply, including failed sends", "why_tests_cant": "Ownership invariant across unbounded histories and failures.", "anchors": ["src/sfptpd_thread.c:sfptpd_msg_alloc", "src/sfptpd_thread.c:sfptpd_msg_free", "src/sfptpd_thread.c:sfptpd_msg_send"]}
{"id": "C30", "title": "A synchronous request receives its own reply", "statement": "A reply is delivered exactly once, to the queue the request named, and a request sent without reply expected is freed exactly once on reply.", "quantifier": "all histories of send, send-and-wait and reply", "why_tests_cant": "Over unbounded message histories.", "anchors": ["src/sfptpd_thread.c:sfptpd_msg_reply", "src/sfptpd_thread.c:sfptpd_msg_send_wait"]}
{"id": "C31", "title": "Messages between threads are delivered in order without loss or duplication", "statement": "Each queue delivers messages in the order sent, each exactly once.", "quantifier": "all interleavings of sends and receives on all queues", "why_tests_cant": "Unbounded interleavings.", "anchors": ["src/sfptpd_thread.c:queue_send", "src/sfptpd_thread.c:queue_receive"]}
{"id": "C32", "title": "Multicast delivers one message to every current subscriber", "statement": "A multicast send to a group with subscribers delivers exactly one copy to each current message subscriber and one event to each event subscriber, or reports an error; subscriptions and publications are counted so that a group exists exactly while it has a user.", "quantifier": "all histories of subscribe, unsubscribe, publish, unpublish and send, all allocation outcomes", "why_tests_cant": "Unbounded histories with allocation failure at every position.", "anchors": ["src/sfptpd_multicast.c:sfptpd_multicast_send", "src/sfptpd_multicast.c:multicast_add_user", "src/sfptpd_multicast.c:multicast_remove_user"]}
{"id": "C33", "title": "Offset and path delay satisfy the PTP equations", "statement": "When a set of timestamps is complete, the reported path delay and offset satisfy the IEEE 1588 equations for the mechanism in use; with a symmetric path and true correction values the reported offset is exactly the slave-minus-master error.", "quantifier": "all timestamp values, corrections and true offsets/delays; end-to-end and peer-to-peer", "why_tests_cant": "Algebraic identity over all values.", "anchors": ["src/ptp/sfptpd_ptp_timestamp_dataset.c:sfptpd_ptp_tsd_update", "src/ptp/sfptpd_ptp_timestamp_dataset.c:sfptpd_ptp_tsd_set_m2s"]}
{"id": "C34", "title": "Results are offered only from a complete and consistent timestamp set", "statement": "After any history of setting and clearing timestamps, results are available only if a master-to-slave measurement and a delay measurement of the current mechanism are both present; any clearing makes them unavailable, and end-to-end and peer-to-peer data are never mixed.", "quantifier": "all histories of dataset operations", "why_tests_cant": "Invariant over unbounded histories.", "anchors": ["src/ptp/sfptpd_ptp_timestamp_dataset.c:sfptpd_ptp_tsd_set_s2m", "src/ptp/sfptpd_ptp_timestamp_dataset.c:sfptpd_ptp_tsd_set_p2p", "src/ptp/sfptpd_ptp_timestamp_dataset.c:sfptpd_ptp_tsd_clear_m2s"]}
{"id": "C35", "title": "The servo steps a clock only when the configured policy allows", "statement": "A clock is stepped only if the offset magnitude reaches the step threshold and the clock-control policy permits a step in the present circumstances; with no-step no step ever happens; step-forward never steps backwards; step-at-startup never steps once active.", "quantifier": "all servo states, offsets, policies and histories", "why_tests_cant": "Safety over all histories and offsets.", "anchors": ["src/sfptpd_servo.c:do_servo_synchronize"]}
{"id": "C36", "title": "Frequency adjustments never exceed the clock's limit", "statement": "Every frequency adjustment applied by the servo lies within plus or minus the maximum the clock supports.", "quantifier": "all offsets and servo states", "why_tests_cant": "All controller states and inputs.", "anchors": ["src/sfptpd_servo.c:do_servo_synchronize", "src/sfptpd_filter.c:sfptpd_pid_filter_update"]}
{"id": "C37", "title": "Servo operational alarms are raised after sustained failure and cleared on success", "statement": "The sustained-failure alarm is raised exactly when synchronisation has failed continuously for at least the configured period and is cleared by the next success; while alarmed the clock is not reported as synchronised.", "quantifier": "all sequences of success/failure outcomes with non-decreasing time", "why_tests_cant": "Temporal property over unbounded histories.", "anchors": ["src/sfptpd_servo.c:sfptpd_servo_synchronize"]}
{"id": "C38", "title": "A clock near the epoch raises an alarm until it is corrected", "statement": "Whenever either the reference or the local clock is near the epoch the near-epoch alarm is set after a servo run that is configured to alarm.", "quantifier": "all pairs of clock times and guard configurations", "why_tests_cant": "All combinations of the two clocks' states.", "anchors": ["src/sfptpd_servo.c:do_servo_synchronize"]}
{"id": "C39", "title": "Bond socket map has no duplicates and stays within capacity", "statement": "After any history of observed transmissions, the socket-to-interface map has no two entries with the same socket or the same interface and never exceeds its capacity.", "quantifier": "all histories of (socket, interface) observations", "why_tests_cant": "Invariant over unbounded histories.", "anchors": ["src/ptp/ptpd2/sfptpd_lacp.c:bondSocksOnTxIfindex"]}
{"id": "C40", "title": "Iterating a socket mask visits exactly the set bits", "statement": "Iterating over a 64-bit valid-socket mask visits every set bit exactly once, in increasing order, and nothing else.", "quantifier": "all 64-bit masks", "why_tests_cant": "2^64 masks; failing ones need bit 31 or higher.", "anchors": ["src/ptp/ptpd2/sfptpd_lacp.h:FOR_EACH_MASK_IDX"]}
{"id": "C41", "title": "PTP common header encodes and decodes losslessly", "statement": "Decoding the encoded form of a header returns the same header for all field values, and decoding then re-encoding reproduces the 34 bytes.", "quantifier": "all header field values", "why_tests_cant": "2^272 headers.", "anchors": ["src/ptp/ptpd2/dep/msg.c:msgUnpackHeader", "src/ptp/ptpd2/dep/msg.c:msgPackHeader", "src/ptp/ptpd2/def/message/header.def"]}
{"id": "C42", "title": "PTP message bodies encode and decode losslessly", "statement": "For Announce, Sync, Follow_Up, Delay_Req, Delay_Resp, Pdelay_Req, Pdelay_Resp and Pdelay_Resp_Follow_Up, decoding what the packer produced returns the values packed.", "quantifier": "all field values of all message types", "why_tests_cant": "Round-trip over all values.", "anchors": ["src/ptp/ptpd2/dep/msg.c:msgPackAnnounce", "src/ptp/ptpd2/dep/msg.c:msgUnpackAnnounce", "src/ptp/ptpd2/dep/msg.c:msgPackSync"]}
{"id": "C43", "title": "Truncated messages are rejected without reading past the received bytes", "statement": "Every decoder applied to a buffer shorter than the message's fixed part reports an error, and no decoder reads at or beyond the given length.", "quantifier": "all buffers of all lengths", "why_tests_cant": "All lengths and contents of attacker-supplied datagrams.", "anchors": ["src/ptp/ptpd2/dep/msg.c:CHECK_INPUT_LENGTH", "src/ptp/ptpd2/dep/msg.c:msgUnpackHeader", "src/ptp/ptpd2/dep/msg.c:msgUnpackTLVHeader"]}
{"id": "C44", "title": "Encoders never write past the supplied space", "statement": "Every packing function given n bytes of space either reports an error or writes only inside those n bytes.", "quantifier": "all message types and all buffer sizes", "why_tests_cant": "All sizes around each boundary.", "anchors": ["src/ptp/ptpd2/dep/msg.c:CHECK_OUTPUT_LENGTH", "src/ptp/ptpd2/dep/msg.c:msgPackPDelayReq"]}
{"id": "C45", "title": "Every TLV of a well-formed message is dispatched exactly once, in order", "statement": "For a message whose suffix is a concatenation of well-formed TLVs, the handler lookup sees exactly those TLVs, in order, each with its own type and value bytes.", "quantifier": "all lists of TLVs of any types and lengths", "why_tests_cant": "All TLV sequences; the failing ones need a TLV following an organisation extension TLV.", "anchors": ["src/ptp/ptpd2/protocol.c:processTLVs", "src/ptp/ptpd2/dep/msg.c:msgUnpackTLVHeader", "src/ptp/ptpd2/dep/msg.c:msgUnpackOrgTLVSubHeader"]}
{"id": "C46", "title": "TLV processing of any datagram terminates and stays in bounds", "statement": "For any received bytes, TLV processing terminates and every TLV handed to a handler lies completely inside the received message.", "quantifier": "all byte strings", "why_tests_cant": "Attacker-chosen lengths.", "anchors": ["src/ptp/ptpd2/protocol.c:processTLVs"]}
{"id": "C47", "title": "A management message never leaves a dangling TLV", "statement": "After unpacking any management message, the TLV pointer is either absent or refers to live memory.", "quantifier": "all received management messages of any length", "why_tests_cant": "Attacker-chosen truncation.", "anchors": ["src/ptp/ptpd2/dep/msg.c:msgUnpackManagement", "src/ptp/ptpd2/dep/msg.c:unpackManagementTLV"]}
{"id": "C48", "title": "Sync and Follow_Up are paired by sequence number and source", "statement": "Each master-to-slave measurement given to the servo combines the receive time of a Sync with the origin time of a Follow_Up of the same sequence number from the current parent (or the origin time of the same one-step Sync), whatever the arrival order, loss or duplication.", "quantifier": "all sequences of received Sync/Follow_Up messages from any sources", "why_tests_cant": "All reorderings, losses and duplications.", "anchors": ["src/ptp/ptpd2/protocol.c:handleSync", "src/ptp/ptpd2/protocol.c:handleFollowUp"]}
{"id": "C49", "title": "A two-step measurement accounts for both correction fields", "statement": "The correction used for a two-step measurement is the sum of the correction fields of the Sync and of its Follow_Up.", "quantifier": "all correction field values", "why_tests_cant": "Needs a one-step transparent clock in front of a two-step master; tests use zero corrections.", "anchors": ["src/ptp/ptpd2/protocol.c:handleFollowUp"]}
{"id": "C50", "title": "Delay responses are matched to the outstanding request", "statement": "Each slave-to-master measurement given to the servo combines the transmit time of the latest Delay_Req with a Delay_Resp carrying that request's sequence number and addressed to this port, in whichever order the response and the transmit timestamp arrive.", "quantifier": "all interleavings of requests, transmit timestamps, responses and other messages", "why_tests_cant": "All interleavings.", "anchors": ["src/ptp/ptpd2/protocol.c:handleDelayResp", "src/ptp/ptpd2/protocol.c:processDelayReqFromSelf", "src/ptp/ptpd2/protocol.c:stash_message"]}
{"id": "C51", "title": "Access control lists permit exactly the configured addresses", "statement": "With order allow-deny a message is accepted exactly when its source is in a permitted network and in no denied one; with deny-allow it is accepted exactly when it is not (denied and not permitted).", "quantifier": "all lists and all 2^32 addresses", "why_tests_cant": "All prefixes and addresses.", "anchors": ["src/ptp/ptpd2/dep/ipv4_acl.c:matchIpv4AccessList", "src/ptp/ptpd2/dep/ipv4_acl.c:matchAddress"]}
{"id": "C52", "title": "Access control entries denote the written network", "statement": "The entry a.b.c.d/n matches an address exactly when its first n bits equal those of a.b.c.d; parsing any entry terminates.", "quantifier": "all networks, prefix lengths 0..32 and dotted masks", "why_tests_cant": "All prefix lengths and masks, including /32 and 255.255.255.255.", "anchors": ["src/ptp/ptpd2/dep/ipv4_acl.c:parseAclEntry"]}
{"id": "C53", "title": "Access control results are evaluated once per message and type", "statement": "For one message, repeated checks of the same list give the same answer, and a TLV requiring several lists is handled only if all of them accept.", "quantifier": "all masks and list configurations", "why_tests_cant": "All combinations of cached and fresh results.", "anchors": ["src/ptp/ptpd2/protocol.c:checkACL", "src/ptp/ptpd2/protocol.c:checkACLmask"]}
{"id": "C54", "title": "Management messages are accepted only when addressed to this port", "statement": "A management message takes effect only if its target clock identity is ours or all-ones and its target port is ours or all-ones; and with set operations disabled no SET or COMMAND takes effect.", "quantifier": "all targets and actions", "why_tests_cant": "All identities.", "anchors": ["src/ptp/ptpd2/protocol.c:acceptManagementMessage", "src/ptp/ptpd2/protocol.c:handleManagement"]}
{"id": "C55", "title": "The monitor merges event reports by node and sequence number", "statement": "After any history of timing and computed-data reports, there is exactly one record per (port, reference port, sequence) key, holding the latest value of each kind.", "quantifier": "all histories of reports", "why_tests_cant": "Unbounded histories.", "anchors": ["src/ptp/sfptpd_ptp_monitor.c:sfptpd_ptp_monitor_update_rx_timing", "src/ptp/sfptpd_ptp_monitor.c:sfptpd_ptp_monitor_update_rx_computed"]}
{"id": "C56", "title": "Format strings expand exactly", "statement": "Expanding a format with interpolations yields the concatenation of literals and expansions, truncated to the buffer, always terminated, reading only within the format string.", "quantifier": "all formats, all buffer sizes", "why_tests_cant": "All format strings including those ending in an incomplete conversion.", "anchors": ["src/sfptpd_misc.c:sfptpd_format"]}
{"id": "C57", "title": "Slave event TLVs encode and decode losslessly", "statement": "The slave receive timing, computed data, transmit timestamps and slave status TLVs decode to the values encoded.", "quantifier": "all field values and element counts", "why_tests_cant": "Round-trip over all values.", "anchors": ["src/ptp/ptpd2/dep/msg.c:appendSlaveRxSyncTimingDataTLV", "src/ptp/ptpd2/dep/msg.c:unpackSlaveRxSyncTimingDataTLV"]}
{"id": "C59", "title": "Statistics intervals describe the period whose data is reported", "statement": "The sequence number, start and end times reported for a history entry are those of the very period whose statistics that entry holds; the period in progress has no end time.", "quantifier": "all interleavings of updates and minute ticks over any number of weeks", "why_tests_cant": "Five periods of up to a week with three generations each need weeks of ticks to exercise.", "anchors": ["src/sfptpd_statistics.c:sfptpd_stats_collection_end_period", "src/sfptpd_statistics.c:sfptpd_stats_collection_get_interval"]}
{"id": "C58", "title": "The outlier filter's verdict is Peirce's criterion on the values it holds", "statement": "For every history of samples and resets, a sample is reported as an outlier exactly if at least five values are held and its distance from their mean exceeds the tabulated criterion for that count times their standard deviation; what is held are the last max_samples samples, outliers replaced by their weighted form.", "quantifier": "all sample histories, sizes and weightings", "why_tests_cant": "Running sums with removal must stay equal to the sums over the window for unbounded histories.", "anchors": ["src/sfptpd_filter.c:sfptpd_peirce_filter_update", "src/sfptpd_filter.c:peirce_filter_get_criterion"]}
{"id": "C60", "title": "The reported outlier threshold is the one that is applied", "statement": "The outlier threshold published in the PTP statistics equals the deviation beyond which the filter would reject the next sample.", "quantifier": "all filter states with at least five samples", "why_tests_cant": "Needs agreement between two formulas over all states.", "anchors": ["src/ptp/ptpd2/dep/servo.c:servo_get_outlier_threshold", "src/sfptpd_filter.c:sfptpd_peirce_filter_update"]}
{"id": "C61", "title": "A configuration file is applied as written or rejected", "statement": "Parsing a file succeeds exactly if each line is blank, the header of an existing section, or an option accepted in the section of the last header, and each section left passes validation; the handlers called are exactly those of the options, in order; every file gets an answer.", "quantifier": "all files, option tables, handlers and validators", "why_tests_cant": "Sequences of lines against arbitrary tables.", "anchors": ["src/sfptpd_config.c:sfptpd_config_parse_file", "src/sfptpd_config.c:config_syntax_check", "src/sfptpd_config.c:config_is_new_section"]}
{"id": "C62", "title": "The frequency applied to the system clock is the one asked for", "statement": "Within the limits of the system clock the tick length and frequency passed to the kernel together make up the frequency adjustment asked for.", "quantifier": "all frequency adjustments and kernel parameters", "why_tests_cant": "Needs an identity between two roundings for all values.", "anchors": ["src/sfptpd_clock.c:sfptpd_clock_adjust_frequency"]}
{"id": "C63", "title": "The pool of bond sockets holds exactly the sockets created", "statement": "For every bond with up to sixteen interfaces, after creation the valid sockets are exactly those that could be created, invalidating one leaves the others valid, and looking up a socket finds it exactly if it is in the pool.", "quantifier": "all creation outcomes for up to 64 sockets", "why_tests_cant": "Failing configurations need eight or more interfaces.", "anchors": ["src/ptp/ptpd2/sfptpd_lacp.c:createBondSocks", "src/ptp/ptpd2/sfptpd_lacp.c:invalidateBondBypassSocket", "src/ptp/ptpd2/sfptpd_lacp.c:bondSockFdIndexInSockPool"]}
{"id": "C64", "title": "Every message sent and every state reported is logged once, and the latest state of each node is kept", "statement": "In every history of reports and flushes, each reported transmission and each reported state is written exactly once, in order of report, the latest-state table has one row for each node that reported a state and it is the last, the node table has one row for each node, and the JSON line for a state names the grandmaster reported.", "quantifier": "all histories of reports and flushes, all initial capacities, all contents of fresh memory", "why_tests_cant": "Needs all interleavings of nodes, growth of the tables and slots reused after flushes.", "anchors": ["src/ptp/sfptpd_ptp_monitor.c:sfptpd_ptp_monitor_log_tx_timestamp", "src/ptp/sfptpd_ptp_monitor.c:sfptpd_ptp_monitor_update_slave_status", "src/ptp/sfptpd_ptp_monitor.c:monitor_register_node", "src/ptp/sfptpd_ptp_monitor.c:monitor_write_json_slave_status", "src/ptp/sfptpd_ptp_monitor.c:sfptpd_ptp_monitor_flush"]}
{"id": "C66", "title": "Each datagram reaches the one port it is for, or none", "statement": "A datagram is handled by a port exactly if it has 34 bytes or more, access control lets it pass, its version is 2, the port is the first with its domain (or, if none has it, the last monitoring port), it was not sent by that port, and the lesser of the bytes received and the claimed message length covers the fixed part of its message type; TLV processing is then given exactly that length and starts at the end of the fixed part.", "quantifier": "all datagrams, all lists of ports, all access control decisions", "why_tests_cant": "All byte strings and lengths, and all combinations of domains and monitoring ports.", "anchors": ["src/ptp/ptpd2/protocol.c:processMessage", "src/ptp/ptpd2/protocol.c:processPortMessage", "src/ptp/ptpd2/protocol.c:unpackPortMessage"]}
{"id": "C67", "title": "Management requests do exactly what they say", "statement": "A SET gives the named attribute exactly the value carried in the message and changes nothing else, is refused for attributes of a grandmaster in a slave, a GET changes nothing and is answered with the value in force, commands change only the state of the port, and what was set is read back whatever other messages come in between. Answers go to the sender with its sequence number.", "quantifier": "all management messages, all clocks, all histories", "why_tests_cant": "All identifiers, values and orders of messages.", "anchors": ["src/ptp/ptpd2/management.c:handleMMSlaveOnly", "src/ptp/ptpd2/management.c:handleMMPriority1", "src/ptp/ptpd2/management.c:handleErrorManagementMessage", "src/ptp/ptpd2/protocol.c:handleManagement"]}
{"id": "C68", "title": "Local transmit times are brought to the timescale of the master exactly once", "statement": "The transmit time of a slave-to-master measurement is the timestamp taken by the interface for that Delay_Req, plus the UTC offset in force once, plus the outbound latency, whichever way the timestamp was obtained.", "quantifier": "all histories of a port, all UTC offsets and latencies", "why_tests_cant": "Needs system timestamping and a UTC offset; tests use one path.", "anchors": ["src/ptp/ptpd2/protocol.c:applyUtcOffset", "src/ptp/ptpd2/protocol.c:processTxTimestamp", "src/ptp/ptpd2/protocol.c:processDelayReqFromSelf"]}
{"id": "C69", "title": "No Sync that was followed up is lost", "statement": "A two-step Sync of the parent and its Follow_Up give a measurement, in whichever order they arrive, for every sequence number and whatever unrelated messages arrive around them.", "quantifier": "all slave states, all sequence numbers, all interleavings of unrelated messages", "why_tests_cant": "One sequence number in 65536 and rare reorderings.", "anchors": ["src/ptp/ptpd2/protocol.c:handleSync", "src/ptp/ptpd2/protocol.c:handleFollowUp"]}
{"id": "C70", "title": "A slave never stops asking for the delay", "statement": "Once a slave using the end-to-end mechanism has had a Sync of its parent, either the timer for the next Delay_Req or the timer for the missing Delay_Resp runs, whatever has been lost, delayed, answered or changed.", "quantifier": "all histories of a port", "why_tests_cant": "Absence of a deadlock over all orders of expiries, timestamps and responses.", "anchors": ["src/ptp/ptpd2/protocol.c:issueDelayReq", "src/ptp/ptpd2/protocol.c:handleDelayResp", "src/ptp/ptpd2/protocol.c:handleSync", "src/ptp/ptpd2/protocol.c:toState"]}
{"id": "C71", "title": "Padding does not change how a message is handled", "statement": "Octets of zero after the end of a message do not prevent it from being handled and no TLV handler is called for them.", "quantifier": "all amounts of padding", "why_tests_cant": "All amounts, and the content of uninitialised memory.", "anchors": ["src/ptp/ptpd2/protocol.c:processTLVs", "src/ptp/ptpd2/dep/msg.c:msgUnpackTLVHeader"]}
{"id": "C65", "title": "A slave reports each sample once, with the master it was taken from", "statement": "With slave event monitoring configured to skip k events between samples, the messages sent hold one event in k+1, in order and once each, with the identity of the master at that time, eight to a message or fewer when the master changes; samples of different kinds do not mix.", "quantifier": "all histories of events and changes of master, all intervals", "why_tests_cant": "Depends on where in a batch the master changes and on the interleaving of kinds.", "anchors": ["src/ptp/ptpd2/evtmon.c:rxSyncTimingDataMonitor", "src/ptp/ptpd2/evtmon.c:egressEventMonitor", "src/ptp/ptpd2/evtmon.c:flushSlaveRxSyncTimingData", "src/ptp/sfptpd_ptp_config.c:parse_mon_rx_sync_timing_data"]}
{"id": "C72", "title": "A monitoring station sees the alarms of a slave", "statement": "The status a slave publishes, as written out by the monitoring station that receives it, has the slave's flags and an alarm if and only if the slave has that alarm.", "quantifier": "all combinations of alarms and flags", "why_tests_cant": "2^17 combinations of alarms over two translations.", "anchors": ["src/ptp/ptpd2/ptpd_lib.c:ptpd_publish_status", "src/ptp/ptpd2/ptpd_lib.c:ptpd_translate_alarms_from_protocol", "src/ptp/sfptpd_ptp_monitor.c:monitor_write_json_slave_status"]}
{"id": "C73", "title": "A transmit timestamp is used only for the message it belongs to", "statement": "If a transmit timestamp is used for a message of a port, the packet it was retrieved with carries that message, the message is the latest of its type from that port, no timestamp was used for it before, the port was not reinitialised since, and no check found it more than ten seconds old.", "quantifier": "all sequences of messages sent, packets read, checks, reinitialisations and reports on an interface with any number of ports", "why_tests_cant": "Depends on the order of timestamps, evictions and reuse of slots over arbitrary histories; a test sees a few orders.", "anchors": ["src/ptp/ptpd2/dep/net.c:netExpectTimestamp", "src/ptp/ptpd2/dep/net.c:netMatchPacketToTsCache", "src/ptp/ptpd2/protocol.c:processTxTimestamp", "src/ptp/ptpd2/protocol.c:doHandleSocketsError"]}
{"id": "C74", "title": "A transmit timestamp that is retrieved is used", "statement": "The timestamp of the latest message of its type is used when it is retrieved, unless the port was reinitialised, the message was found more than ten seconds old, its packet was read before, another message fits the packet, or 32 or more messages were sent since.", "quantifier": "all histories before, between and after", "why_tests_cant": "The fault appears only with 32 requests outstanding, when any message is lost to the next one.", "anchors": ["src/ptp/ptpd2/dep/net.c:netExpectTimestamp", "src/ptp/ptpd2/dep/net.c:netMatchPacketToTsCache", "src/ptp/ptpd2/protocol.c:processTxTimestamp"]}
{"id": "C75", "title": "Missing transmit timestamps raise an alarm", "statement": "If a message of a port has had no timestamp for a second and no later message has had one, the periodic check raises the alarm NO_TX_TIMESTAMPS of the port; the alarm is otherwise raised only by timestamps of the wrong kind and cleared when a timestamp is used.", "quantifier": "all histories and times", "why_tests_cant": "The condition in the code is never true, which a test that does not withhold timestamps cannot see.", "anchors": ["src/ptp/ptpd2/dep/net.c:netCheckTimestampAlarms", "src/ptp/ptpd2/protocol.c:processTxTimestamp", "src/ptp/ptpd2/datatypes.h:sfptpd_tristate"]}
{"id": "C76", "title": "The statistics of transmit timestamps add up", "statement": "Since the last report, the messages counted are those sent, the timestamps counted over all classes are those retrieved, and the requests held at the report and made since equal those retrieved, dropped and still held. A timestamp is counted in the class of the time it took.", "quantifier": "all histories, and all times below 2^63 seconds", "why_tests_cant": "Each request may leave the cache in three ways; the sum must hold for all histories.", "anchors": ["src/ptp/ptpd2/dep/net.c:netMatchPacketToTsCache", "src/ptp/ptpd2/dep/net.c:netCheckTimestampStats", "src/ptp/ptpd2/dep/net.c:netExpectTimestamp", "src/ptp/ptpd2/dep/net.c:netCheckTimestampAlarms"]}
{"id": "C77", "title": "The handling of transmit timestamps reads only its own memory", "statement": "No sequence of messages, packets and checks makes the handling of transmit timestamps read beyond the array of requests or use a variable that was not assigned.", "quantifier": "all histories", "why_tests_cant": "The faults need a full cache, or a message received that no request fits; the reads do not necessarily crash.", "anchors": ["src/ptp/ptpd2/dep/net.c:netExpectTimestamp", "src/ptp/ptpd2/protocol.c:processMessage"]}
{"id": "C78", "title": "Timers of the protocol expire when due, and not once stopped", "statement": "A timer started for x seconds is found to have expired exactly when a multiple of floor(16x), at least one, ticks of 62.5 ms have passed since it was started and not since the question was last asked; it is never early, an expiry is not lost, and other timers have no effect. A timer that was stopped does not expire.", "quantifier": "all sequences of ticks and of operations on all timers, all intervals from 0 that fit", "why_tests_cant": "Depends on the interleaving of ticks with questions, stops and restarts.", "anchors": ["src/ptp/ptpd2/dep/timer.c:timerTick", "src/ptp/ptpd2/dep/timer.c:timerStart", "src/ptp/ptpd2/dep/timer.c:timerStop", "src/ptp/ptpd2/dep/timer.c:timerExpired", "src/ptp/ptpd2/dep/timer.c:timerRunning"]}
{"id": "C79", "title": "A leap second steps the clocks once, at the end of the day, in the right direction", "statement": "The clocks of the interfaces are stepped for a leap second only by the expiry of a timer armed for the end of the day of the request (one second before it for a deleted second), after another expiry armed for the start of the guard interval of two to ten seconds, if the request was not cancelled or replaced before that interval; a deleted second puts them forward by one second, an inserted one back. Each request does so at most once, and a request that is accepted and left alone does so if the policy admits it. In a test only the UTC offset is changed.", "quantifier": "all histories of requests, cancellations, tests and expiries, all guard intervals and times from the epoch on, all policies", "why_tests_cant": "Depends on the order of messages from the PTP module and of timer events over hours.", "anchors": ["src/sfptpd_engine.c:on_schedule_leap_second", "src/sfptpd_engine.c:on_leap_second_timer", "src/sfptpd_engine.c:on_cancel_leap_second", "src/sfptpd_engine.c:on_test_leap_second", "src/sfptpd_clock.c:sfptpd_clock_leap_second_now"]}
{"id": "C80", "title": "Synchronization is suspended around a leap second and resumed after it", "statement": "Timestamps are processed by the instances exactly when the engine is not within the guard interval of a leap second, and the guard flag is set exactly within it; after at most three expiries of the timer all is as without a leap second.", "quantifier": "all histories", "why_tests_cant": "Depends on failures of system calls at particular moments.", "anchors": ["src/sfptpd_engine.c:change_sync_instance_flags", "src/sfptpd_engine.c:on_leap_second_timer", "src/sfptpd_engine.c:on_cancel_leap_second", "src/sfptpd_engine.c:on_synchronize"]}
{"id": "C81", "title": "Leap seconds respect the clock control policy", "statement": "With step-forward no clock is put back over a leap second; the system clock is stepped by the kernel if and only if the clocks of the interfaces are; with the policies without steps none is.", "quantifier": "all policies, all histories", "why_tests_cant": "The system clock is stepped by the kernel, at midnight of a day with a leap second.", "anchors": ["src/sfptpd_engine.c:on_schedule_leap_second", "src/sfptpd_engine.c:on_leap_second_timer", "src/sfptpd_clock.c:sfptpd_clock_schedule_leap_second"]}
{"id": "C82", "title": "A leap second can be cancelled until its guard interval", "statement": "Outside the time between the start of the guard interval and the leap second, a cancellation stops the timer, restores the flags of the instances, tells the modules and the kernel, and no clock is stepped thereafter without another request; within that time it has no effect.", "quantifier": "all histories before and after the cancellation", "why_tests_cant": "Quantifies over all later executions.", "anchors": ["src/sfptpd_engine.c:on_cancel_leap_second", "src/sfptpd_clock.c:sfptpd_clock_schedule_leap_second"]}
{"id": "C83", "title": "No command about leap seconds stops the daemon", "statement": "Each request about leap seconds that can be made from outside is carried out or refused without a failed assertion.", "quantifier": "all commands in all states", "why_tests_cant": "Needs all pairs of commands and states.", "anchors": ["src/sfptpd_engine.c:on_configure_test_mode", "src/sfptpd_engine.c:sfptpd_engine_schedule_leap_second", "src/include/sfptpd_test.h:SFPTPD_TESTS_ARRAY"]}
{"id": "C84", "title": "A PTP servo without control of its clock leaves it alone", "statement": "While another instance controls the clock (no clock control flag), nothing a servo does touches the clock except the explicit command to step it; measurements in particular only adjust the clock while control is held, and control is gained and lost by control messages alone.", "quantifier": "all states, all events, all histories", "why_tests_cant": "Two instances may share a clock; needs all interleavings of control messages, messages and resets.", "anchors": ["src/ptp/ptpd2/dep/servo.c:servo_update_clock", "src/ptp/ptpd2/dep/servo.c:servo_control", "src/ptp/ptpd2/dep/servo.c:servo_reset", "src/ptp/ptpd2/dep/servo.c:servo_reset_freq_adjustment", "src/ptp/ptpd2/bmc.c:m1"]}
{"id": "C85", "title": "A PTP servo steps its clock exactly when the policy says so", "statement": "The clock is stepped on account of measurements if and only if a Sync message completes a measurement whose filtered offset reaches the step threshold, the clustering guard does not object, the servo has control and the policy permits the step; the step undoes just the offset. Step-at-startup and step-on-first-lock step at most once in the life of a port. A clock that is read-only is never touched.", "quantifier": "all states, policies, thresholds, filters and histories", "why_tests_cant": "Depends on the history of adjustments and on the direction of the step.", "anchors": ["src/ptp/ptpd2/dep/servo.c:servo_update_clock", "src/ptp/ptpd2/dep/servo.c:servo_step_clock", "src/ptp/ptpd2/dep/servo.c:servo_init", "src/ptp/ptpd2/protocol.c:doInitPort"]}
{"id": "C86", "title": "A PTP servo slews against the offset, within the range of the clock", "statement": "The reported adjustment of the frequency always lies within the range of the clock. An offset that reaches the threshold but may not be stepped away is slewed at the full rate against its sign; a smaller one by the saved correction plus the output of the controller, limited to the range; and that is what the clock is asked for.", "quantifier": "all histories and clocks whose saved correction is within their range", "why_tests_cant": "Needs an invariant over all histories of measurements, resets, saves and changes of clock.", "anchors": ["src/ptp/ptpd2/dep/servo.c:servo_update_clock", "src/ptp/ptpd2/dep/servo.c:servo_adjust_frequency", "src/ptp/ptpd2/dep/servo.c:servo_set_slave_clock"]}
{"id": "C87", "title": "While the clustering guard objects the clock is not adjusted", "statement": "A measurement the clustering guard objects to leaves the clock, the adjustment and the number of steps alone and raises the alarm, which is recorded once when it rises; the first measurement it does not object to clears the alarm, and nothing else raises it.", "quantifier": "all states and events", "why_tests_cant": "All combinations of alarm, verdict, policy and offset.", "anchors": ["src/ptp/ptpd2/dep/servo.c:servo_update_clock"]}
{"id": "C88", "title": "Measurements from before a step or a suspension are not used after it", "statement": "After a step of the clock, by measurement or command, or a reset of the servo, every timestamp in the present data set and in the filters was provided by a later message, and the timestamps of a measurement are those of its message; while processing is suspended no timestamps are held.", "quantifier": "all histories before and after", "why_tests_cant": "Provenance of data over all later executions.", "anchors": ["src/ptp/ptpd2/dep/servo.c:servo_step_clock", "src/ptp/ptpd2/dep/servo.c:servo_reset", "src/ptp/ptpd2/dep/servo.c:servo_reset_filters", "src/ptp/ptpd2/dep/servo.c:servo_control", "src/ptp/ptpd2/dep/servo.c:servo_provide_m2s_ts"]}
{"id": "C89", "title": "A refused adjustment raises the clock control alarm", "statement": "When the clock refuses a step or a frequency the alarm for failures to control the clock is raised; it is cleared by the next request that succeeds.", "quantifier": "all states and events, all answers of the kernel", "why_tests_cant": "Depends on failures of particular system calls.", "anchors": ["src/ptp/ptpd2/dep/servo.c:servo_step_clock", "src/ptp/ptpd2/dep/servo.c:servo_adjust_frequency", "src/ptp/ptpd2/dep/servo.c:servo_reset"]}
{"id": "C90", "title": "Exactly one sync instance steers its clock", "statement": "At any time at most one sync instance holds the control flag for its clock, and that is the selected one; once started exactly one holds it.", "quantifier": "all configurations, elections, histories of state changes, timer expiries, operator commands and hot-plug events, all outcomes of the control calls", "why_tests_cant": "Needs an invariant over all interleavings of state changes, timers, commands and failures.", "anchors": ["src/sfptpd_engine.c:select_sync_instance", "src/sfptpd_engine.c:on_sync_instance_state_changed", "src/sfptpd_engine.c:on_selection_holdoff_timer", "src/sfptpd_engine.c:on_select_instance"]}
{"id": "C91", "title": "Every clock to be disciplined has one servo, following the selected instance's clock", "statement": "After every event each active clock that is to be disciplined, other than the reference clock of the selected instance, is the slave of exactly one active servo whose master is that reference clock; and no event makes the engine run out of servos.", "quantifier": "all histories, all sets of clocks", "why_tests_cant": "Sets of clocks change at run time; needs an invariant over all histories.", "anchors": ["src/sfptpd_engine.c:reconfigure_servos", "src/sfptpd_engine.c:select_sync_instance", "src/sfptpd_engine.c:engine_handle_new_link_table"]}
{"id": "C92", "title": "All modules know the grandmaster of the selected instance", "statement": "After every event the grandmaster information last given to the sync modules is that of the selected instance.", "quantifier": "all histories", "why_tests_cant": "A missed update shows only in particular orders of state changes and selections.", "anchors": ["src/sfptpd_engine.c:propagate_grandmaster_info", "src/sfptpd_engine.c:on_sync_instance_state_changed", "src/sfptpd_sync_module.c:sfptpd_sync_module_gm_info_equal"]}
{"id": "C93", "title": "A better instance must stay better for the holdoff interval", "statement": "Unless the operator decides, the selected instance is only replaced by the instance the election prefers, and only when the selected one has not been the elected one for the whole of the holdoff interval.", "quantifier": "all histories with non-decreasing times, all intervals", "why_tests_cant": "Temporal property over all interleavings of elections and timers.", "anchors": ["src/sfptpd_engine.c:on_sync_instance_state_changed", "src/sfptpd_engine.c:on_selection_holdoff_timer"]}
{"id": "C94", "title": "The elected instance gets selected", "statement": "Unless the operator decides, whenever no holdoff timer is running the selected instance is the one elected among the present states, and when the timer expires it becomes so.", "quantifier": "all configurations and histories in which the control calls succeed", "why_tests_cant": "Absence of stuck states over all histories.", "anchors": ["src/sfptpd_engine.c:on_sync_instance_state_changed", "src/sfptpd_engine.c:on_selection_holdoff_timer", "src/sfptpd_engine.c:engine_on_startup", "src/sfptpd_engine.c:create_timers"]}
{"id": "C95", "title": "In manual mode the operator's last choice is the selected instance", "statement": "With strategy manual and a policy whose first rule is the manual one, the selected instance is always the one named last by the operator, or the configured one, whatever states the instances report.", "quantifier": "all histories of state changes, commands and timers; all policies beginning with the manual rule", "why_tests_cant": "Needs the election, the marks and the selection in all orders of events.", "anchors": ["src/sfptpd_engine.c:on_select_instance", "src/sfptpd_bic.c:sfptpd_bic_select_instance", "src/sfptpd_bic.c:sfptpd_bic_choose", "src/sfptpd_engine.c:engine_on_startup"]}
{"id": "C96", "title": "The command to step the clocks brings them to the grandmaster's time", "statement": "After the command the selected instance's clock and the clock of every servo not near the epoch show the time of the grandmaster; no other clock is touched; nothing is stepped when adjusting is forbidden. The command is safe in every configuration.", "quantifier": "all offsets, numbers of servos and configurations", "why_tests_cant": "Arithmetic over any number of servos, and configurations nobody runs in tests.", "anchors": ["src/sfptpd_engine.c:on_step_clocks", "src/sfptpd_thread.c:sfptpd_msg_send_wait"]}
{"id": "C97", "title": "The clustering score tells whether two grandmasters agree", "statement": "With a valid discriminator the score of an instance is 1 if its grandmaster is within the threshold of the discriminator's and 0 if it is not; if this cannot be known it is the configured default.", "quantifier": "all offsets, thresholds and results of comparing the clocks", "why_tests_cant": "Failing clock comparisons are not seen in tests.", "anchors": ["src/sfptpd_engine.c:sfptpd_engine_calculate_clustering_score", "src/sfptpd_clock.c:sfptpd_clock_compare"]}
{"id": "C98", "title": "A start reported as successful leaves a running engine", "statement": "If the engine's start is reported as successful the engine has a selected instance, the elected or the configured one; if it is reported as failed the engine has been shut down.", "quantifier": "all configurations, instances and outcomes of the calls", "why_tests_cant": "Depends on failures during the creation of the modules.", "anchors": ["src/sfptpd_engine.c:engine_on_startup"]}
{"id": "C99", "title": "Hot-plugged clocks enter and leave the clock feed exactly once", "statement": "After a change of the interfaces the clocks taken out of the feed are just those in the snapshot before and not after, and the clocks put in just those after and not before, each once.", "quantifier": "all pairs of snapshots sorted by address", "why_tests_cant": "Merge of two sorted lists of any length.", "anchors": ["src/sfptpd_engine.c:engine_handle_new_link_table", "src/sfptpd_clock.c:sfptpd_clock_get_active_snapshot"]}
{"id": "C100", "title": "Well-formed control commands are carried out as written", "statement": "Every command written as documented and of at most 127 bytes makes the daemon take exactly the action it names, with the parameters given.", "quantifier": "all commands, parameters and texts", "why_tests_cant": "Infinitely many texts; a parser is only tested on a few.", "anchors": ["src/sfptpd_control.c:sfptpd_control_socket_get_action", "src/sfptpd_servo.c:sfptpd_servo_get_type_flag"]}
{"id": "C101", "title": "Nothing but well-formed control commands is carried out", "statement": "A datagram that is not a well-formed command has no effect but a message in the log.", "quantifier": "all datagrams", "why_tests_cant": "Needs all byte strings, of any length.", "anchors": ["src/sfptpd_control.c:sfptpd_control_socket_get_action"]}
{"id": "C102", "title": "An instance can be selected by its name", "statement": "For every name an instance may have, the command selectinstance=NAME makes the engine look for exactly that instance.", "quantifier": "all names of up to 63 characters, all former contents of the message", "why_tests_cant": "Depends on left-over memory and on names at the limit of length.", "anchors": ["src/sfptpd_engine.c:sfptpd_engine_select_instance", "src/sfptpd_control.c:sfptpd_control_socket_get_action"]}
{"id": "C103", "title": "Controller coefficients given by the operator stay in force", "statement": "The coefficients of every servo are those given last by the operator, each one separately, or the configured ones if none was given.", "quantifier": "all sequences of commands and of re-initialisations of a port", "why_tests_cant": "The coefficients are lost only in certain orders of events.", "anchors": ["src/ptp/ptpd2/ptpd_lib.c:ptpd_pid_adjust", "src/ptp/ptpd2/dep/servo.c:servo_init", "src/ptp/ptpd2/dep/servo.c:servo_pid_adjust", "src/sfptpd_servo.c:sfptpd_servo_pid_adjust"]}
{"id": "C104", "title": "A peer delay is measured from one exchange with one peer", "statement": "Every peer delay measurement given to the servo is made from the latest Pdelay_Req sent, its transmit time, and a Pdelay_Resp with the request's number addressed to this port (and, in two steps, a follow-up with the same number from the same port); no exchange gives two measurements.", "quantifier": "all sequences of messages, transmit timestamps, timeouts, state changes and failures to send", "why_tests_cant": "Depends on the interleaving of messages from several ports and late timestamps.", "anchors": ["src/ptp/ptpd2/protocol.c:issuePDelayReq", "src/ptp/ptpd2/protocol.c:processPDelayReqFromSelf", "src/ptp/ptpd2/protocol.c:handlePDelayResp", "src/ptp/ptpd2/protocol.c:handlePDelayRespFollowUp"]}
{"id": "C105", "title": "A peer delay is corrected by the transparent clocks", "statement": "A peer delay measurement is corrected by the correction field of the Pdelay_Resp and, in two steps, also by that of the follow-up.", "quantifier": "all sequences of events, all corrections", "why_tests_cant": "Tests use corrections of zero.", "anchors": ["src/ptp/ptpd2/protocol.c:handlePDelayResp", "src/ptp/ptpd2/protocol.c:handlePDelayRespFollowUp"]}
{"id": "C106", "title": "The local times of a peer delay measurement are in one timescale", "statement": "The transmit time of the request and the receive time of the answer that are given to the servo differ by just the time that passed on the local clock, less the configured latencies.", "quantifier": "all sequences of events, all UTC offsets and state changes meanwhile", "why_tests_cant": "Needs a change of timescale during an exchange.", "anchors": ["src/ptp/ptpd2/protocol.c:applyUtcOffset", "src/ptp/ptpd2/protocol.c:processTxTimestamp", "src/ptp/ptpd2/protocol.c:handlePDelayResp"]}
{"id": "C107", "title": "Peers that ask for the delay get a right answer", "statement": "A Pdelay_Resp goes to the sender of the request with its number and time of arrival; its follow-up goes to the same port with the same number, the request's correction and the time the answer was sent; each answer whose transmit time comes is followed up.", "quantifier": "all sequences of requests, failures to send and timestamps", "why_tests_cant": "Needs two askers and timestamps that come late.", "anchors": ["src/ptp/ptpd2/protocol.c:handlePDelayReq", "src/ptp/ptpd2/protocol.c:issuePDelayResp", "src/ptp/ptpd2/protocol.c:processPDelayRespFromSelf", "src/ptp/ptpd2/protocol.c:issuePDelayRespFollowUp"]}
{"id": "C108", "title": "A Follow_Up gives the time of its Sync", "statement": "Each Follow_Up has the number of the latest Sync and the time at which that was sent, in the timescale of the messages; there is at most one for each Sync, and one is sent if the transmit time comes before the next Sync is due.", "quantifier": "all sequences of events of a port", "why_tests_cant": "Depends on when timestamps arrive.", "anchors": ["src/ptp/ptpd2/protocol.c:issueSync", "src/ptp/ptpd2/protocol.c:processSyncFromSelf", "src/ptp/ptpd2/protocol.c:issueFollowup", "src/ptp/ptpd2/protocol.c:processTxTimestamp"]}
{"id": "C109", "title": "Only a master acts as one", "statement": "Announce, Sync, Follow_Up and Delay_Resp messages are sent in the master state only; a master in end-to-end mode answers just the Delay_Reqs received with a timestamp, with their number, correction and time of arrival.", "quantifier": "all sequences of events of a port", "why_tests_cant": "Depends on state changes between a Sync and its timestamp.", "anchors": ["src/ptp/ptpd2/protocol.c:issueSync", "src/ptp/ptpd2/protocol.c:issueAnnounce", "src/ptp/ptpd2/protocol.c:issueFollowup", "src/ptp/ptpd2/protocol.c:issueDelayResp", "src/ptp/ptpd2/protocol.c:handleDelayReq"]}
{"id": "C110", "title": "The counters of messages sent are right", "statement": "Each counter of messages sent equals the number of messages of that kind sent.", "quantifier": "all sequences of events of a port", "why_tests_cant": "Tests do not compare all counters with the messages on the wire.", "anchors": ["src/ptp/ptpd2/protocol.c:issueDelayResp", "src/ptp/ptpd2/protocol.c:issuePDelayResp", "src/ptp/ptpd2/protocol.c:issueSync", "src/ptp/ptpd2/protocol.c:issueAnnounce"]}
{"id": "C111", "title": "A port in peer-to-peer mode never stops asking", "statement": "In the listening, slave, master and passive states in peer-to-peer mode either the request timer or the response timer runs.", "quantifier": "all sequences of events of a port", "why_tests_cant": "A stuck mechanism shows only in some order of events.", "anchors": ["src/ptp/ptpd2/protocol.c:toState", "src/ptp/ptpd2/protocol.c:doTimerTick", "src/ptp/ptpd2/protocol.c:issuePDelayReq", "src/ptp/ptpd2/protocol.c:handlePDelayResp"]}
{"id": "C112", "title": "A complete peer delay exchange is used", "statement": "When the transmit time of a request and an answer to it come before the next request, in any order, a measurement is given to the servo.", "quantifier": "all sequences of events of a port", "why_tests_cant": "Depends on the order in which the kernel delivers a packet and a timestamp.", "anchors": ["src/ptp/ptpd2/protocol.c:handlePDelayResp", "src/ptp/ptpd2/protocol.c:handlePDelayRespFollowUp", "src/ptp/ptpd2/protocol.c:processPDelayReqFromSelf"]}
{"id": "C113", "title": "Messages of a kind are numbered consecutively", "statement": "The numbers of the Announces sent by a port are consecutive modulo 65536, and so are those of the Syncs and of the Pdelay_Reqs.", "quantifier": "all sequences of events of a port", "why_tests_cant": "Needs wrap-around and failures to send.", "anchors": ["src/ptp/ptpd2/protocol.c:issueAnnounce", "src/ptp/ptpd2/protocol.c:issueSync", "src/ptp/ptpd2/protocol.c:issuePDelayReq"]}
{"id": "C114", "title": "The offset of a PPS pulse is that of the clock", "statement": "If the clock is less than half a second wrong and the time of day is known to less than half a second, an instance with a filter of one tap posts exactly the clock's difference from the true time, less the propagation delay.", "quantifier": "all sequences of events of any number of instances, all offsets and delays", "why_tests_cant": "Fails only for combinations of pulse and time of day near half a second.", "anchors": ["src/pps/sfptpd_pps_module.c:pps_servo_update", "src/pps/sfptpd_pps_module.c:pps_time_of_day_poll"]}
{"id": "C115", "title": "A PPS step removes the whole offset", "statement": "A step made because of a pulse removes the offset, that is the difference less the propagation delay; it is made only by an instance in control, for half a second or more, and if the configuration permits steps.", "quantifier": "all sequences of events, all configurations", "why_tests_cant": "Tests with a propagation delay of zero see nothing.", "anchors": ["src/pps/sfptpd_pps_module.c:pps_servo_update", "src/pps/sfptpd_pps_module.c:pps_servo_step_clock"]}
{"id": "C116", "title": "PPS pulses are trusted after three good periods", "statement": "A poll changes the clock or posts a measurement only if the latest pulses had at least three periods in sequence between 0.9 and 1.1 seconds.", "quantifier": "all sequences of events, all times of pulses", "why_tests_cant": "The periods before depend on steps, pauses and losses of signal.", "anchors": ["src/pps/sfptpd_pps_module.c:pps_on_pps_event", "src/pps/sfptpd_pps_module.c:pps_servo_step_clock", "src/pps/sfptpd_pps_module.c:pps_on_control"]}
{"id": "C117", "title": "A PPS pulse that is used came a good period after the one before", "statement": "A pulse that is acted on came between 0.9 and 1.1 seconds after the one before.", "quantifier": "all sequences of events, all times of pulses", "why_tests_cant": "Needs a pause of processing between two pulses.", "anchors": ["src/pps/sfptpd_pps_module.c:pps_on_pps_event", "src/pps/sfptpd_pps_module.c:pps_on_control"]}
{"id": "C118", "title": "The engine knows the state of a PPS instance", "statement": "After every poll the engine was last told the state of the instance, whether a slave has an alarm, and its score.", "quantifier": "all sequences of events", "why_tests_cant": "Depends on the history of state changes.", "anchors": ["src/pps/sfptpd_pps_module.c:pps_do_poll", "src/pps/sfptpd_pps_module.c:pps_state_machine_reset", "src/pps/sfptpd_pps_module.c:pps_on_no_pps_event"]}
{"id": "C119", "title": "The engine hears of the loss of the PPS signal", "statement": "From 1.1 seconds to a minute after the latest pulse, once the instance looked for a pulse in vain, the engine does not believe in a slave without alarms.", "quantifier": "all sequences of events, with and without a file descriptor", "why_tests_cant": "Needs timing of pulses, polls and ticks.", "anchors": ["src/pps/sfptpd_pps_module.c:pps_on_no_pps_event", "src/pps/sfptpd_pps_module.c:pps_do_poll", "src/pps/sfptpd_pps_module.c:pps_on_timer"]}
{"id": "C120", "title": "A synchronised PPS instance has no alarms", "statement": "After a poll, an instance that says it is synchronised has no alarms and processes timestamps.", "quantifier": "all sequences of events", "why_tests_cant": "Depends on more than a minute of history.", "anchors": ["src/pps/sfptpd_pps_module.c:pps_convergence_update"]}
{"id": "C121", "title": "Losses of the PPS signal are counted", "statement": "A poll counts the end of a loss of signal exactly if the alarm was there before and is not after.", "quantifier": "all sequences of events", "why_tests_cant": "Needs a loss noticed by the timer.", "anchors": ["src/pps/sfptpd_pps_module.c:pps_stats_update", "src/pps/sfptpd_pps_module.c:pps_on_timer", "src/pps/sfptpd_pps_module.c:pps_do_poll"]}
{"id": "C122", "title": "A PPS instance sets only frequencies within limits, and only in control", "statement": "All frequencies set or saved are within the limits of the clock; without a command to step, the clock is touched only by an instance told to control it.", "quantifier": "all sequences of events, all offsets and filter constants", "why_tests_cant": "Quantifies over all histories of control and offsets.", "anchors": ["src/pps/sfptpd_pps_module.c:pps_servo_update", "src/pps/sfptpd_pps_module.c:pps_servo_reset", "src/pps/sfptpd_pps_module.c:pps_on_control", "src/pps/sfptpd_pps_module.c:pps_on_save_state"]}
{"id": "C123", "title": "No sequence of events stops the PPS module", "statement": "With any configuration allowed by the options, no sequence of events makes the module fail an assertion.", "quantifier": "all configurations and sequences of events", "why_tests_cant": "Tests cover finitely many sequences.", "anchors": ["src/pps/sfptpd_pps_module.c:pps_servo_step_clock", "src/pps/sfptpd_pps_module.c:pps_on_step_clock", "src/pps/sfptpd_pps_module.c:pps_start_instance"]}
{"id": "C124", "title": "PPS instances do not disturb each other", "statement": "The offset of a clear pulse is determined by the latest answer about the time of day that the instance got itself.", "quantifier": "all sequences of events of any number of instances", "why_tests_cant": "Needs two instances whose clocks differ by a second.", "anchors": ["src/pps/sfptpd_pps_module.c:pps_time_of_day_poll", "src/pps/sfptpd_pps_module.c:pps_servo_update"]}
{"id": "C125", "title": "A missing time of day raises the alarm", "statement": "If the source of the time of day always says it has none, then after every poll of an instance its alarm is set.", "quantifier": "all sequences of events of any number of instances", "why_tests_cant": "Needs two instances polled at the same times.", "anchors": ["src/pps/sfptpd_pps_module.c:pps_time_of_day_poll"]}
{"id": "C126", "title": "The numbers of PPS pulses are checked", "statement": "For a pulse that comes to a slave, the alarm is raised and counted exactly if its number, where the clock gives numbers, does not follow that of the pulse before modulo 2^32; steps are counted exactly.", "quantifier": "all sequences of events, all numbers", "why_tests_cant": "Needs wrap-around and pauses.", "anchors": ["src/pps/sfptpd_pps_module.c:pps_on_pps_event", "src/pps/sfptpd_pps_module.c:pps_stats_update"]}
{"id": "C127", "title": "A PPS sample is about its pulse", "statement": "With a filter of one tap and a clear time of day, unless the clock is stepped the sample posted for a pulse is the difference that the pulse shows.", "quantifier": "all sequences of events, all offsets", "why_tests_cant": "Needs a standby instance with a large offset.", "anchors": ["src/pps/sfptpd_pps_module.c:pps_servo_update", "src/pps/sfptpd_pps_module.c:pps_send_clustering_input"]}
{"id": "C128", "title": "A synchronised chronyd makes the chrony module a slave", "statement": "When a poll of chronyd is answered truthfully and chronyd is synchronised to one of its sources, the module is a slave after the poll.", "quantifier": "all histories, all lists of at most 32 sources", "why_tests_cant": "Needs a conversation with chronyd of several packets per source.", "anchors": ["src/crny/sfptpd_crny_module.c:issue_get_source_stats", "src/crny/sfptpd_crny_module.c:crny_parse_state"]}
{"id": "C129", "title": "The chrony module's state follows chronyd's sources", "statement": "When a poll is answered truthfully and no source is selected yet, the module is in selection if a source other than a reference clock answers as a server, and listening otherwise; the engine is told of a change.", "quantifier": "all histories, all lists of 1 to 32 sources", "why_tests_cant": "Needs a conversation with chronyd of several packets per source.", "anchors": ["src/crny/sfptpd_crny_module.c:crny_state_machine", "src/crny/sfptpd_crny_module.c:crny_parse_state", "src/crny/sfptpd_crny_module.c:handle_get_source_stats"]}
{"id": "C130", "title": "The system clock is blocked while chronyd disciplines it", "statement": "After each poll in which the module finds how chronyd runs, the system clock is blocked exactly if chronyd disciplines it.", "quantifier": "all sequences of events, all results of the clock control script", "why_tests_cant": "Depends on restarts of chronyd between polls.", "anchors": ["src/crny/sfptpd_crny_module.c:ntp_on_clock_control_change", "src/crny/sfptpd_crny_module.c:chrony_next_clock_control_state", "src/crny/sfptpd_crny_module.c:block_clock", "src/crny/sfptpd_crny_module.c:unblock_clock"]}
{"id": "C131", "title": "Chronyd is stopped from disciplining the clock", "statement": "With clock control configured, a poll that finds chronyd disciplining the clock against the engine's wish runs the script to stop it.", "quantifier": "all sequences of events", "why_tests_cant": "Depends on when chronyd was started relative to the module.", "anchors": ["src/crny/sfptpd_crny_module.c:ntp_on_clock_control_change", "src/crny/sfptpd_crny_module.c:crny_clock_control", "src/crny/sfptpd_crny_module.c:do_clock_control"]}
{"id": "C132", "title": "The chrony module is disabled exactly while chronyd is away", "statement": "After a truthfully answered poll the module is not disabled; it becomes disabled only if chronyd was found absent or the connection was refused, and does so when a poll finds it absent.", "quantifier": "all sequences of events", "why_tests_cant": "Depends on the order of starts, losses and polls.", "anchors": ["src/crny/sfptpd_crny_module.c:crny_state_machine", "src/crny/sfptpd_crny_module.c:crny_parse_state", "src/crny/sfptpd_crny_module.c:handle_get_source_count"]}
{"id": "C133", "title": "No reply of chronyd harms the chrony module", "statement": "No sequence of events, whatever replies contain and whenever they come, makes the module fail an assertion or access memory outside its tables.", "quantifier": "all sequences of events and replies", "why_tests_cant": "Tests cover finitely many replies.", "anchors": ["src/crny/sfptpd_crny_module.c:handle_get_source_count", "src/crny/sfptpd_crny_module.c:issue_get_source_datum", "src/crny/sfptpd_crny_module.c:ntp_send_clustering_input"]}
{"id": "C134", "title": "The engine knows the constraints of the chrony module", "statement": "Without clock control, when the module rests after a poll the engine knows that it must be selected exactly if chronyd was last seen disciplining the clock; with clock control it is never told of constraints.", "quantifier": "all sequences of events", "why_tests_cant": "Needs a restart of chronyd with other options and an unchanged state.", "anchors": ["src/crny/sfptpd_crny_module.c:ntp_handle_state_change", "src/crny/sfptpd_crny_module.c:clock_control_at_launch", "src/crny/sfptpd_crny_module.c:ntp_on_clock_control_change"]}
{"id": "C135", "title": "A late reply of chronyd does not disturb the next poll", "statement": "The result of a truthfully answered poll does not depend on whether an answer to an earlier poll, given up by then, arrives first.", "quantifier": "all histories, all lists of sources", "why_tests_cant": "Needs replies that come after their timeout.", "anchors": ["src/crny/sfptpd_crny_module.c:crny_state_machine", "src/crny/sfptpd_crny_module.c:check_reply"]}
{"id": "C136", "title": "Numbers of chronyd's protocol are read exactly", "statement": "Every 32-bit pattern is read as coefficient times two to the power of exponent less 25, both in two's complement of 25 and 7 bits.", "quantifier": "all 2^32 patterns", "why_tests_cant": "Too many patterns, and the sign bits matter.", "anchors": ["src/crny/sfptpd_crny_module.c:sfptpd_crny_tofloat", "src/crny/sfptpd_crny_module.c:sfptpd_crny_tosigned"]}
{"id": "C137", "title": "The option -x of chronyd is recognised", "statement": "A chronyd that was given the option x, alone or along with other letters, is not taken to discipline the clock, however its command line is read.", "quantifier": "all command lines and all ways of reading them in pieces", "why_tests_cant": "Infinitely many command lines and splits.", "anchors": ["src/crny/sfptpd_crny_module.c:clock_control_at_launch"]}
{"id": "C138", "title": "A read-only clock is never written", "statement": "A clock that is configured as read-only stays read-only, and from then on no step, frequency, status or synchronization report is ever issued for it; with clock_control no-adjust nothing is ever written to any clock.", "quantifier": "all configurations, all sequences of clock operations, interface changes and kernel results", "why_tests_cant": "Every path that could write has to be covered, over any history of hot plugging.", "anchors": ["src/sfptpd_clock.c:sfptpd_clock_adjust_time", "src/sfptpd_clock.c:sfptpd_clock_adjust_frequency", "src/sfptpd_clock.c:sfptpd_clock_set_sync_status", "src/sfptpd_clock.c:configure_clock_readonly"]}
{"id": "C139", "title": "A blocked clock is not touched", "statement": "As long as a clock is blocked, because another program is in control of it, no call acts on it.", "quantifier": "all sequences of operations that leave the block of the clock alone", "why_tests_cant": "Every path that could write has to be covered.", "anchors": ["src/sfptpd_clock.c:sfptpd_clock_set_blocked", "src/sfptpd_clock.c:sfptpd_clock_schedule_leap_second"]}
{"id": "C140", "title": "Every value written to a clock is acceptable", "statement": "Every tick is within a tenth of nominal, every frequency of the system clock within the tolerance of the kernel, and every frequency of a NIC clock within the configured limit, whatever was asked for.", "quantifier": "all requests, all histories", "why_tests_cant": "Unbounded inputs and roundings at the limits.", "anchors": ["src/sfptpd_clock.c:sfptpd_clock_adjust_frequency", "src/sfptpd_clock.c:clock_determine_max_freq_adj"]}
{"id": "C141", "title": "The system clock gets the frequency that was asked for", "statement": "The tick and frequency given to the kernel amount to the requested rate, limited to what is possible, within a hundredth of a ppb.", "quantifier": "all requests", "why_tests_cant": "The split between ticks and frequency has narrow ranges where it is wrong.", "anchors": ["src/sfptpd_clock.c:sfptpd_clock_adjust_frequency"]}
{"id": "C142", "title": "Setting one clock to another makes them agree", "statement": "When sfptpd_clock_set_time succeeds and the comparisons are accurate the two clocks differ by less than a nanosecond.", "quantifier": "all differences, all histories", "why_tests_cant": "Depends on flags set by other parts of the program.", "anchors": ["src/sfptpd_clock.c:sfptpd_clock_set_time", "src/sfptpd_clock.c:sfptpd_clock_adjust_time"]}
{"id": "C143", "title": "The threshold for setting a clock applies to the size of the difference", "statement": "With a threshold sfptpd_clock_set_time adjusts the clock exactly if the difference is no less than the threshold.", "quantifier": "all differences and thresholds", "why_tests_cant": "Signs of differences.", "anchors": ["src/sfptpd_clock.c:sfptpd_clock_set_time", "src/include/sfptpd_clock.h:sfptpd_clock_set_time"]}
{"id": "C144", "title": "Stepping a clock never ends the program", "statement": "A step of any clock in the list returns.", "quantifier": "all histories of interface changes", "why_tests_cant": "Needs hot unplugging of an adapter followed by a step.", "anchors": ["src/sfptpd_clock.c:clock_record_step", "src/sfptpd_phc.c:sfptpd_phc_record_step"]}
{"id": "C145", "title": "A clock that was reset is set when its interface comes up", "statement": "A NIC clock that may be stepped and shows a time within five years of the epoch is set to the system clock when it is corrected as new.", "quantifier": "all histories of removals and insertions", "why_tests_cant": "Needs removal and insertion of hardware.", "anchors": ["src/sfptpd_clock.c:sfptpd_clock_correct_new", "src/sfptpd_clock.c:sfptpd_clock_set_time"]}
{"id": "C146", "title": "Blocking of a clock is counted per user", "statement": "A clock is blocked exactly as long as a user has blocked it and not unblocked it.", "quantifier": "all sequences of calls by any number of users", "why_tests_cant": "Unbounded sequences of calls.", "anchors": ["src/sfptpd_clock.c:sfptpd_clock_set_blocked", "src/sfptpd_clock.c:sfptpd_clock_is_blocked"]}
{"id": "C147", "title": "Scheduling a leap second tells of success", "statement": "sfptpd_clock_schedule_leap_second announces exactly the leap second asked for to the kernel and returns 0 if the kernel accepted it.", "quantifier": "all states and results of adjtimex", "why_tests_cant": "The result of adjtimex depends on the state of the kernel.", "anchors": ["src/sfptpd_clock.c:sfptpd_clock_schedule_leap_second"]}
{"id": "C148", "title": "At a leap second the disciplined clocks are moved by a second", "statement": "sfptpd_clock_leap_second_now moves the clocks that the program disciplines by exactly one second in the right direction and no others.", "quantifier": "all sets of clocks and their flags", "why_tests_cant": "Combinations of flags and types over any number of clocks.", "anchors": ["src/sfptpd_clock.c:sfptpd_clock_leap_second_now"]}
{"id": "C149", "title": "A clock can be found by its hardware id", "statement": "sfptpd_clock_find_by_hw_id returns a clock with the given id if there is one.", "quantifier": "all lists of clocks, all ids", "why_tests_cant": "The function is not called by the program.", "anchors": ["src/sfptpd_clock.c:sfptpd_clock_find_by_hw_id"]}
{"id": "C150", "title": "Comparing clocks is exact and harmless", "statement": "With accurate measurements a comparison succeeds exactly if both clocks are present, gives their exact difference, the opposite for exchanged arguments, and writes nothing.", "quantifier": "all pairs of clocks, all differences, all histories", "why_tests_cant": "Unbounded differences.", "anchors": ["src/sfptpd_clock.c:sfptpd_clock_compare"]}
{"id": "C151", "title": "A saved frequency correction is restored", "statement": "After a correction was saved successfully, loading gives it back within half a unit of the sixth decimal.", "quantifier": "all corrections, all limits", "why_tests_cant": "Rounding in text at the limits.", "anchors": ["src/sfptpd_clock.c:sfptpd_clock_load_freq_correction", "src/sfptpd_clock.c:sfptpd_clock_save_freq_correction", "src/sfptpd_logging.c:sfptpd_log_write_freq_correction"]}
{"id": "C152", "title": "A new clock gets the flags of the configuration", "statement": "A new clock is read-only exactly if configured so, and is disciplined exactly if it is not read-only, not of a make to be left alone, and all clocks are to be disciplined or it is in the list.", "quantifier": "all configurations, names and interfaces", "why_tests_cant": "Combinations of lists, names and types.", "anchors": ["src/sfptpd_clock.c:configure_new_clock", "src/sfptpd_clock.c:configure_clock_list", "src/sfptpd_clock.c:configure_clock_readonly"]}
{"id": "C153", "title": "A listed clock that must not be disciplined is an error", "statement": "If the clock list names a clock of a make that is to be left alone, configuring it fails.", "quantifier": "all lists", "why_tests_cant": "Order of the entries.", "anchors": ["src/sfptpd_clock.c:configure_clock_list", "src/sfptpd_clock.c:configure_new_clock"]}
{"id": "C154", "title": "A scan of the interfaces keeps the clocks", "statement": "A scan of the interfaces never frees the clocks that the program uses.", "quantifier": "all configurations, all histories of interfaces", "why_tests_cant": "Needs an adapter that appears while the program runs.", "anchors": ["src/sfptpd_clock.c:sfptpd_clock_init_interface", "src/sfptpd_clock.c:sfptpd_clock_shutdown", "src/sfptpd_clock.c:sfptpd_clock_rescan_interfaces"]}
{"id": "C155", "title": "An interface event leaves the frequency of clocks alone", "statement": "An event of an interface that does not alter the set of interfaces does not write a frequency to a clock.", "quantifier": "all histories", "why_tests_cant": "Needs link events while a servo runs.", "anchors": ["src/sfptpd_interface.c:sfptpd_clock_correct_new", "src/sfptpd_clock.c:sfptpd_clock_correct_new", "src/sfptpd_clock.c:sfptpd_clock_load_freq_correction"]}
{"id": "C156", "title": "Clock ids are unique for unique MAC addresses", "statement": "Clock ids made from different MAC addresses of six bytes differ and contain the MAC address in the documented place.", "quantifier": "all MAC addresses and unique bits", "why_tests_cant": "2^96 pairs.", "anchors": ["src/sfptpd_clock.c:renew_clock"]}
{"id": "C157", "title": "A clock uses the device of its interface", "statement": "After a scan without errors each NIC clock that is not marked as deleted has open the PHC of an interface of its NIC.", "quantifier": "all histories of interfaces", "why_tests_cant": "Needs a device that comes back with another number.", "anchors": ["src/sfptpd_clock.c:renew_clock", "src/sfptpd_clock.c:sfptpd_clock_rescan_interfaces"]}
{"id": "C158", "title": "The comparison methods listed are those used", "statement": "The option phc_diff_methods is accepted exactly if every parameter is a documented name and none is listed twice; the methods in effect are then those listed, in that order, and nothing else changes.", "quantifier": "all lists of parameters and previous settings", "why_tests_cant": "Unbounded lists of parameters.", "anchors": ["src/sfptpd_general_config.c:parse_phc_diff_method_order"]}
{"id": "C159", "title": "The PPS methods listed are those used", "statement": "The option phc_pps_methods is accepted exactly for documented names without repetition; the methods in effect are then those listed, in that order, and nothing else changes.", "quantifier": "all lists of parameters and previous settings", "why_tests_cant": "Unbounded lists of parameters; writes beyond the end of a table.", "anchors": ["src/sfptpd_general_config.c:parse_phc_pps_methods"]}
{"id": "C160", "title": "Handing over an order of methods", "statement": "Handing over an order with an end mark makes exactly the methods before the mark those in effect; an order without a mark is refused, and the table always keeps an end mark.", "quantifier": "all orders and previous tables", "why_tests_cant": "All tables, among them those without an end mark.", "anchors": ["src/sfptpd_phc.c:sfptpd_phc_set_diff_methods", "src/sfptpd_phc.c:sfptpd_phc_set_pps_methods"]}
{"id": "C161", "title": "The POSIX identifier of a hardware clock is its own", "statement": "The identifier determines the file descriptor and conversely, it is never that of a system clock, and its low three bits are 3.", "quantifier": "all file descriptors", "why_tests_cant": "All values of an int.", "anchors": ["src/sfptpd_phc.c:sfptpd_phc_get_clock_id", "src/sfptpd_phc.c:sfptpd_phc_open"]}
{"id": "C162", "title": "Comparisons use the smallest window", "statement": "A comparison by several readings succeeds exactly if one of the windows is positive; the result is the device minus the middle of a smallest positive window, and it is remembered.", "quantifier": "all readings, any number of samples", "why_tests_cant": "Depends on the timing of readings.", "anchors": ["src/sfptpd_phc.c:phc_update_smallest_window_diff", "src/sfptpd_phc.c:phc_compare_using_extended_offset_n", "src/sfptpd_phc.c:phc_compare_using_kernel_readings_n", "src/sfptpd_phc.c:phc_compare_by_reading_time_n", "src/sfptpd_phc.c:phc_compare_using_precise_offset"]}
{"id": "C163", "title": "Accuracy of a comparison", "statement": "If the device is a fixed time ahead of the system clock at a moment within each window, the result is wrong by at most half of any positive window.", "quantifier": "all readings, any number of samples", "why_tests_cant": "The true difference of two clocks cannot be known in a test.", "anchors": ["src/sfptpd_phc.c:phc_update_smallest_window_diff"]}
{"id": "C164", "title": "The difference by pulses is the nearest that agrees with the pulse", "statement": "The difference found with a pulse agrees with the time stamp of the pulse modulo one second and is the one nearest to the rough comparison.", "quantifier": "all rough differences and pulses", "why_tests_cant": "Only near half a second.", "anchors": ["src/sfptpd_phc.c:phc_compare_using_pps"]}
{"id": "C165", "title": "The difference by pulses is normalised", "statement": "The nanoseconds of the difference found with a pulse are less than a billion.", "quantifier": "all rough differences and pulses", "why_tests_cant": "Only at one value of the time stamp.", "anchors": ["src/sfptpd_phc.c:phc_compare_using_pps"]}
{"id": "C166", "title": "The first usable comparison method is chosen", "statement": "Starting a device chooses the first method listed that can be used with it, and fails exactly if there is none.", "quantifier": "all tables, all results of the kernel", "why_tests_cant": "Needs devices of all kinds.", "anchors": ["src/sfptpd_phc.c:phc_set_fallback_diff_method", "src/sfptpd_phc.c:sfptpd_phc_start", "src/sfptpd_phc.c:phc_configure_pps"]}
{"id": "C167", "title": "No use of a hardware clock is undefined", "statement": "No use of a hardware clock device overruns a buffer, reads a variable that was not set, fails an assertion or recurses without end.", "quantifier": "all executions, all results of the kernel", "why_tests_cant": "All names of devices and results of calls.", "anchors": ["src/sfptpd_phc.c:phc_configure_pps", "src/sfptpd_phc.c:phc_discover_devpps", "src/sfptpd_phc.c:sfptpd_phc_compare_to_sys_clk", "src/sfptpd_phc.c:phc_set_fallback_diff_method"]}
{"id": "C168", "title": "Pulses get a second chance and no third", "statement": "A device gives up the comparison by pulses at most twice; after the first time it does without them for 2.2 s and then tries again.", "quantifier": "all executions", "why_tests_cant": "Needs a device whose pulses stop and start again.", "anchors": ["src/sfptpd_phc.c:phc_compare_using_pps", "src/sfptpd_phc.c:sfptpd_phc_compare_to_sys_clk"]}
{"id": "C169", "title": "After a step only later pulses are used", "statement": "After a clock was stepped, a result that rests on pulses rests on one that arrived after the step.", "quantifier": "all executions", "why_tests_cant": "Depends on the moment of the step within the second.", "anchors": ["src/sfptpd_phc.c:sfptpd_phc_record_step", "src/sfptpd_phc.c:phc_compare_using_pps"]}
{"id": "C170", "title": "Every difference by pulses was measured", "statement": "A successful comparison by pulses rests on a pulse that was used, now or before.", "quantifier": "all executions", "why_tests_cant": "Needs a failure of a read at the first pulse.", "anchors": ["src/sfptpd_phc.c:phc_compare_using_pps"]}
{"id": "C171", "title": "The external PPS device belongs to the clock", "statement": "The external PPS device of a clock is one named after the clock, or a companion device listed directly after the internal PPS device of the clock.", "quantifier": "all contents of the directory of PPS devices", "why_tests_cant": "Needs several adapters.", "anchors": ["src/sfptpd_phc.c:phc_discover_devpps"]}
{"id": "C172", "title": "The first usable PPS input is chosen", "statement": "Opening a device chooses the first PPS input method listed that can be used with it, if there is one.", "quantifier": "all lists of methods, all results of the kernel", "why_tests_cant": "Needs devices of all kinds.", "anchors": ["src/sfptpd_phc.c:phc_discover_pps", "src/sfptpd_phc.c:sfptpd_phc_open"]}
{"id": "C173", "title": "Each external pulse is reported once", "statement": "The events reported are the pulses the kernel has seen, each once, with its time and sequence number.", "quantifier": "all sequences of polls and answers", "why_tests_cant": "Unbounded sequences of polls.", "anchors": ["src/sfptpd_phc.c:phc_get_devpps_event"]}
{"id": "C174", "title": "Events of the PTP subsystem", "statement": "The event returned is the first in the queue that belongs to channel 0 and what precedes it is discarded; an error of the queue is returned.", "quantifier": "all queues", "why_tests_cant": "Unbounded queues.", "anchors": ["src/sfptpd_phc.c:phc_get_devptp_event"]}
{"id": "C175", "title": "File descriptors of hardware clocks", "statement": "After any use of a device, closing it closes every file descriptor as often as it was opened and stops the pulses exactly where they were started; a device that could not be opened leaves nothing open.", "quantifier": "all executions, all results of the kernel", "why_tests_cant": "Every combination of failures.", "anchors": ["src/sfptpd_phc.c:sfptpd_phc_close", "src/sfptpd_phc.c:sfptpd_phc_open", "src/sfptpd_phc.c:phc_configure_pps", "src/sfptpd_phc.c:phc_open_devpps"]}
{"id": "C176", "title": "The state of the NTP module follows from ntpd's answers", "statement": "As long as the clock is not stepped, the state is the one the documented rules give for ntpd's last answer; in the state slave the offset, dispersion and stratum are those of the first peer that ntpd's latest list shows as selected and that is not a reference clock.", "quantifier": "all configurations, circumstances of the start, sequences of events and answers", "why_tests_cant": "Every order of events, answers and failures.", "anchors": ["src/ntp/sfptpd_ntp_module.c:ntp_parse_state", "src/ntp/sfptpd_ntp_module.c:ntp_on_timer", "src/ntp/sfptpd_ntp_module.c:ntp_state_machine"]}
{"id": "C177", "title": "After a step of the clock the old offset is not used, the new one is", "statement": "After the clock has been stepped the module is not slave as long as ntpd shows the offset from before, and becomes slave again once ntpd shows a new one.", "quantifier": "all lives, all continuations after the step", "why_tests_cant": "Depends on the interleaving of steps, polls and answers.", "anchors": ["src/ntp/sfptpd_ntp_module.c:ntp_on_step_clock", "src/ntp/sfptpd_ntp_module.c:ntp_on_offset_id_change", "src/ntp/sfptpd_ntp_module.c:ntp_parse_state", "src/ntp/sfptpd_ntp_module.c:offset_id_is_valid"]}
{"id": "C178", "title": "ntpd is only switched as the engine asks", "statement": "ntpd's control of the clock is only ever switched to what the engine last asked for, off at the start, never without a configured instance; a message that changes what is asked for is passed on exactly once.", "quantifier": "all lives and events", "why_tests_cant": "Every order of control messages, polls and failures.", "anchors": ["src/ntp/sfptpd_ntp_module.c:ntp_on_control", "src/ntp/sfptpd_ntp_module.c:ntp_on_clock_control_change", "src/ntp/sfptpd_ntp_module.c:ntp_configure_ntpd", "src/ntp/sfptpd_ntpd_client.c:sfptpd_ntpclient_clock_control"]}
{"id": "C179", "title": "The engine knows the state of the NTP instance", "statement": "From the moment the module runs, the engine has been told the present state, offset, accuracy, stratum and constraints of the instance.", "quantifier": "all lives", "why_tests_cant": "Every order of events.", "anchors": ["src/ntp/sfptpd_ntp_module.c:ntp_handle_state_change", "src/ntp/sfptpd_ntp_module.c:ntp_send_instance_status", "src/ntp/sfptpd_ntp_module.c:ntp_on_run", "src/ntp/sfptpd_ntp_module.c:ntp_on_control"]}
{"id": "C180", "title": "Constraints of the NTP instance do not contradict each other", "statement": "The module never says both that it must and that it cannot be selected; each of the two says that switching ntpd that way has failed with no success since.", "quantifier": "all lives", "why_tests_cant": "Every order of failures.", "anchors": ["src/ntp/sfptpd_ntp_module.c:ntp_on_control", "src/ntp/sfptpd_ntp_module.c:ntp_on_clock_control_change"]}
{"id": "C181", "title": "No answer of ntpd makes the NTP module fail", "statement": "Whatever ntpd answers, no handler fails an assertion or reads outside the array of peers.", "quantifier": "all lives with at most 32 peers in a list, all events", "why_tests_cant": "Out-of-bounds reads go unnoticed in tests.", "anchors": ["src/ntp/sfptpd_ntp_module.c:ntp_send_clustering_input", "src/ntp/sfptpd_ntp_module.c:ntp_on_write_topology", "src/ntp/sfptpd_ntp_module.c:ntp_stats_update", "src/ntp/sfptpd_ntp_module.c:ntp_convergence_update", "src/ntp/sfptpd_ntp_module.c:ntp_send_rt_stats_update"]}
{"id": "C182", "title": "An ntpd that does not run means disabled", "statement": "When ntpd is polled and does not run, the module is in the state disabled.", "quantifier": "all lives and circumstances", "why_tests_cant": "Daemon stops at any moment.", "anchors": ["src/ntp/sfptpd_ntp_module.c:ntp_parse_state", "src/ntp/sfptpd_ntpd_client.c:select_protocol"]}
{"id": "C183", "title": "Either protocol of ntpd is understood", "statement": "Whichever of the two protocols ntpd speaks, the module can talk to it; the first protocol to answer is used, mode 7 before mode 6.", "quantifier": "all lives and circumstances", "why_tests_cant": "Daemon replaced at any moment.", "anchors": ["src/ntp/sfptpd_ntpd_client.c:select_protocol", "src/ntp/sfptpd_ntpd_client.c:sfptpd_ntpclient_get_sys_info", "src/ntp/sfptpd_ntpd_client.c:sfptpd_ntpclient_get_peer_info"]}
{"id": "C184", "title": "ntpd is polled at the configured rate", "statement": "Successive polls of ntpd are at least the configured interval apart.", "quantifier": "all lives with times that do not decrease", "why_tests_cant": "Timing over unbounded periods.", "anchors": ["src/ntp/sfptpd_ntp_module.c:ntp_state_machine", "src/ntp/sfptpd_ntp_module.c:ntp_on_run"]}
{"id": "C185", "title": "Statistics of NTP belong to the offset they announce", "statement": "Statistics sent because ntpd has a new offset carry that offset; statistics and valid clustering inputs are only sent in the state slave, with the offset of the peer followed; the module is in sync only as slave.", "quantifier": "all lives and events", "why_tests_cant": "Every order of events and answers.", "anchors": ["src/ntp/sfptpd_ntp_module.c:ntp_on_offset_id_change", "src/ntp/sfptpd_ntp_module.c:ntp_send_rt_stats_update", "src/ntp/sfptpd_ntp_module.c:ntp_send_clustering_input", "src/ntp/sfptpd_ntp_module.c:ntp_convergence_update"]}
{"id": "C186", "title": "No two programs steer the system clock", "statement": "Unless the conflict is to be ignored, the program does not start or carry on while ntpd controls a clock that the program may write, without having been asked to.", "quantifier": "all configurations and circumstances, all lives", "why_tests_cant": "Every order in which the programs are started.", "anchors": ["src/ntp/sfptpd_ntp_module.c:ntp_configure_ntpd", "src/ntp/sfptpd_ntp_module.c:ntp_handle_clock_control_conflict", "src/ntp/sfptpd_ntp_module.c:ntp_on_clock_control_change"]}
{"id": "C187", "title": "ntpd is corrected when it does not control the clock as asked", "statement": "Whenever ntpd reports that it does not control the clock as the engine asked, it is told to.", "quantifier": "all lives and reports", "why_tests_cant": "Depends on failures in earlier polls.", "anchors": ["src/ntp/sfptpd_ntp_module.c:ntp_on_timer", "src/ntp/sfptpd_ntp_module.c:ntp_on_clock_control_change"]}
{"id": "C188", "title": "No accuracy without a source", "statement": "In any state but slave the engine is told of no offset, accuracy or stratum, and is given none on request.", "quantifier": "all lives", "why_tests_cant": "Every order of failures.", "anchors": ["src/ntp/sfptpd_ntp_module.c:ntp_parse_state", "src/ntp/sfptpd_ntp_module.c:ntp_send_instance_status", "src/ntp/sfptpd_ntp_module.c:ntp_on_get_status"]}
{"id": "C189", "title": "Replies of ntpd are made of its packets only", "statement": "What a successful mode 6 query returns is the payloads of packets that arrived with the number and the operation of this query and without an error, put together from offset 0 without gap or overlap, exactly one of them marked as final.", "quantifier": "all sequences of packets, of any content", "why_tests_cant": "Every reordering, duplication and corruption of packets.", "anchors": ["src/ntp/sfptpd_ntpd_client_mode6.c:mode6_response", "src/ntp/sfptpd_ntpd_client_mode6.c:mode6_validate_response_packet"]}
{"id": "C190", "title": "Replies of ntpd are put together completely", "statement": "When ntpd splits its answer into at most 32 packets and all of them arrive within the timeout, in any order, repeated or not, among packets that do not answer the query, the query returns exactly the answer.", "quantifier": "all answers, ways to split them, orders and repetitions", "why_tests_cant": "The number of orders is unbounded.", "anchors": ["src/ntp/sfptpd_ntpd_client_mode6.c:mode6_response"]}
{"id": "C191", "title": "No reply of ntpd makes the reassembly leave its arrays", "statement": "Whatever arrives on the socket, nothing is read or written outside the table of errors, the arrays of fragments, the packet and the buffer.", "quantifier": "all sequences of packets, of any content", "why_tests_cant": "Every content of a packet.", "anchors": ["src/ntp/sfptpd_ntpd_client_mode6.c:mode6_response", "src/ntp/sfptpd_ntpd_client_mode6.c:ntp_cerr2errno"]}
{"id": "C192", "title": "A query to ntpd ends", "statement": "A query ends within 33 timeouts whatever arrives, and within one timeout when nothing that arrives answers it.", "quantifier": "all sequences of packets and times", "why_tests_cant": "A flood of packets may go on for ever.", "anchors": ["src/ntp/sfptpd_ntpd_client_mode6.c:mode6_response"]}
{"id": "C193", "title": "A query that ntpd refuses fails", "statement": "A query that ntpd answers with an error is not successful.", "quantifier": "all error answers", "why_tests_cant": "Every code that a peer may send.", "anchors": ["src/ntp/sfptpd_ntpd_client_mode6.c:mode6_response", "src/ntp/sfptpd_ntpd_client_mode6.c:ntp_cerr2errno"]}
{"id": "C194", "title": "A query about an association is answered for that association", "statement": "What a query about an association returns is what ntpd says about that association.", "quantifier": "all sequences of packets", "why_tests_cant": "Every mixture of answers.", "anchors": ["src/ntp/sfptpd_ntpd_client_mode6.c:mode6_response", "src/ntp/sfptpd_ntpd_client_mode6.c:mode6_query"]}
{"id": "C195", "title": "A reply ends with its final packet", "statement": "A reply ends where the packet that is marked as the final one ends.", "quantifier": "all sequences of packets", "why_tests_cant": "Every order of packets.", "anchors": ["src/ntp/sfptpd_ntpd_client_mode6.c:mode6_response"]}
{"id": "C196", "title": "The variables in a reply are all found", "statement": "The variables that ntpd lists are found, all of them, in order and with their values, quoted or not, whatever commas, blanks and ends of lines stand between them.", "quantifier": "all lists of variables and ways to write them", "why_tests_cant": "Infinitely many texts.", "anchors": ["src/ntp/sfptpd_ntpd_client_mode6.c:next_var"]}
{"id": "C197", "title": "The search for variables ends and fits its arrays", "statement": "Every call that finds a variable consumes some of the text; names and values are parts of the text that fit their arrays.", "quantifier": "all texts", "why_tests_cant": "Infinitely many texts.", "anchors": ["src/ntp/sfptpd_ntpd_client_mode6.c:next_var"]}
{"id": "C198", "title": "No answer of ntpd makes the client fail", "statement": "Whatever ntpd answers to the question for its peer, the client does not use a null pointer or leave an array.", "quantifier": "all sequences of packets, of any content", "why_tests_cant": "Every text that may be sent.", "anchors": ["src/ntp/sfptpd_ntpd_client_mode6.c:mode6_get_sys_info", "src/ntp/sfptpd_ntpd_client_mode6.c:parse_addr_string", "src/ntp/sfptpd_ntpd_client_mode6.c:next_var"]}
{"id": "C199", "title": "Addresses are taken out of what ntpd writes", "statement": "An IPv4 or IPv6 address is found when it stands alone and when a port follows, in which case the latter is in brackets.", "quantifier": "all addresses and ports", "why_tests_cant": "Infinitely many texts, and whatever earlier values left in memory.", "anchors": ["src/ntp/sfptpd_ntpd_client_mode6.c:parse_addr_string"]}
{"id": "C200", "title": "The peer that ntpd has selected is known", "statement": "The address that the client returns is the one in ntpd's answer, however it is written and split; the result is 0, ENOENT or ECONNREFUSED, and 0 only if an address was found in an answer to this query.", "quantifier": "all answers and circumstances", "why_tests_cant": "Every way to split and order the answer.", "anchors": ["src/ntp/sfptpd_ntpd_client_mode6.c:mode6_get_sys_info", "src/ntp/sfptpd_ntpd_client_mode6.c:mode6_query"]}
{"id": "C201", "title": "The table of peers says what ntpd says", "statement": "The table has one entry for each association that is configured or reachable, in the order of ntpd's list, and each says what ntpd says of it.", "quantifier": "all lists of associations and descriptions", "why_tests_cant": "Depends on the number and order of associations.", "anchors": ["src/ntp/sfptpd_ntpd_client_mode6.c:mode6_get_peer_info", "src/ntp/sfptpd_ntpd_client_mode6.c:peervarlist"]}
{"id": "C202", "title": "Success means that the peers were got", "statement": "A result of 0 means that ntpd's list of peers and the description of each were got.", "quantifier": "all answers and circumstances", "why_tests_cant": "Every combination of failures.", "anchors": ["src/ntp/sfptpd_ntpd_client_mode6.c:mode6_get_peer_info"]}
{"id": "C203", "title": "ntpd's control of the clock is switched only if it says so", "statement": "Switching ntpd's control of the clock succeeds only if ntpd says so in its answer to this command; without a key nothing is sent.", "quantifier": "all answers, all states of the client", "why_tests_cant": "Depends on what earlier answers left in the buffer.", "anchors": ["src/ntp/sfptpd_ntpd_client_mode6.c:mode6_clock_control"]}
{"id": "C204", "title": "Requests are well formed", "statement": "A request is a control message of version 4 with the operation, the number of the query, the association and the text, padded with zeros to 32 bits, with authentication to 64 bits and followed by the digest of all that, and fits the packet; a text that is too long is refused, and nothing else is.", "quantifier": "all operations, numbers, associations and texts", "why_tests_cant": "Infinitely many texts.", "anchors": ["src/ntp/sfptpd_ntpd_client_mode6.c:mode6_request"]}
{"id": "C205", "title": "The question for variables fits and is stable", "statement": "A question names as many variables as fit, in order, with commas between them; the question for the next peer, for which there is only the room that the first one took, is the same.", "quantifier": "all lists of names and limits", "why_tests_cant": "Every combination of lengths.", "anchors": ["src/ntp/sfptpd_ntpd_client_mode6.c:make_query_data", "src/ntp/sfptpd_ntpd_client_mode6.c:mode6_get_peer_info"]}
{"id": "C206", "title": "Authenticated requests to older ntpd carry the time", "statement": "An authenticated mode 7 request ends with the digest of all that precedes it, and the eight bytes before that are the time of the clock since 1900 plus 20 ms.", "quantifier": "all times, codes, items and packet sizes", "why_tests_cant": "Carries between the words occur at particular times only.", "anchors": ["src/ntp/sfptpd_ntpd_client_mode7.c:mode7_request", "src/ntp/sfptpd_ntpd_client_mode7.c:mode7_get_systime"]}
{"id": "C207", "title": "Requests to older ntpd are well formed", "statement": "A request is the header for its code and items, the items, and zeros up to the size in use.", "quantifier": "all codes, items and sizes", "why_tests_cant": "Every combination of sizes.", "anchors": ["src/ntp/sfptpd_ntpd_client_mode7.c:mode7_request"]}
{"id": "C208", "title": "What is no answer is ignored and refusals are understood", "statement": "A datagram that does not begin like an answer to the request makes no difference to the result; a refusal ends the wait at once with the error that it stands for.", "quantifier": "all datagrams, at any place among others", "why_tests_cant": "Infinitely many datagrams.", "anchors": ["src/ntp/sfptpd_ntpd_client_mode7.c:mode7_response", "src/ntp/sfptpd_ntpd_client_mode7.c:mode7_check_response_part1", "src/ntp/sfptpd_ntpd_client_mode7.c:mode7_error_to_errno"]}
{"id": "C209", "title": "Answers in several packets are put together", "statement": "The parts of an answer may arrive in any order, repeated, and among other datagrams; the result is all its items, in order, each filled up to the size that is expected.", "quantifier": "all answers, ways to split them, orders and repetitions", "why_tests_cant": "The number of orders is unbounded.", "anchors": ["src/ntp/sfptpd_ntpd_client_mode7.c:mode7_response"]}
{"id": "C210", "title": "No answer of an older ntpd makes the client fail", "statement": "Whatever arrives, no function of the mode 7 client reads or writes outside its arrays or runs into other undefined behaviour.", "quantifier": "all sequences of datagrams, of any content", "why_tests_cant": "Every content of a datagram.", "anchors": ["src/ntp/sfptpd_ntpd_client_mode7.c:mode7_response", "src/ntp/sfptpd_ntpd_client_mode7.c:mode7_get_sys_info", "src/ntp/sfptpd_ntpd_client_mode7.c:mode7_get_peer_info", "src/ntp/sfptpd_ntpd_client_mode7.c:mode7_clock_control"]}
{"id": "C211", "title": "Waiting for an older ntpd ends", "statement": "An attempt is over within the timeout whatever arrives, and fails with ETIMEDOUT when it is over and nothing that begins like an answer came.", "quantifier": "all sequences of datagrams and times", "why_tests_cant": "A flood may go on for ever.", "anchors": ["src/ntp/sfptpd_ntpd_client_mode7.c:mode7_response"]}
{"id": "C212", "title": "Smaller requests for older ntpd", "statement": "A daemon that refuses the implementation is asked again with the next smaller size; over any number of queries the size only goes down through 188, 160 and 48 bytes and there are at most two datagrams more than queries.", "quantifier": "all sequences of queries and answers", "why_tests_cant": "Every history of queries.", "anchors": ["src/ntp/sfptpd_ntpd_client_mode7.c:mode7_query", "src/ntp/sfptpd_ntpd_client_mode7.c:ntp_legacy_pkt_sizes"]}
{"id": "C213", "title": "What ntpd follows and whether it controls the clock", "statement": "When the daemon tells its system peer and flags, these are reported; success is reported only when it told them.", "quantifier": "all records and datagrams", "why_tests_cant": "Every record.", "anchors": ["src/ntp/sfptpd_ntpd_client_mode7.c:mode7_get_sys_info", "src/ntp/sfptpd_ntpd_client_mode7.c:write_address"]}
{"id": "C214", "title": "The peers of an older ntpd are reported as told", "statement": "When the daemon tells about up to 32 peers, the table holds them in order, each with the addresses, stratum, role, offset, packet counts and root dispersion that were told.", "quantifier": "all lists of peers and records, however split into packets", "why_tests_cant": "Every list and every record.", "anchors": ["src/ntp/sfptpd_ntpd_client_mode7.c:mode7_get_peer_info", "src/ntp/sfptpd_ntpd_client_mode7.c:write_address", "src/ntp/sfptpd_ntpd_client_mode7.c:read_address", "src/ntp/sfptpd_ntpd_client_mode7.c:cmp_host_address"]}
{"id": "C215", "title": "The table of peers is not exceeded", "statement": "Whatever arrives, at most 32 peers are reported and the client stays usable.", "quantifier": "all sequences of datagrams", "why_tests_cant": "Every content of a datagram.", "anchors": ["src/ntp/sfptpd_ntpd_client_mode7.c:mode7_get_peer_info"]}
{"id": "C216", "title": "A daemon that says nothing", "statement": "When the daemon does not answer, both functions say so after one request and leave what they were to fill in; an answer without data means that there are no peers.", "quantifier": "all other datagrams that may arrive", "why_tests_cant": "Infinitely many datagrams.", "anchors": ["src/ntp/sfptpd_ntpd_client_mode7.c:mode7_get_sys_info", "src/ntp/sfptpd_ntpd_client_mode7.c:mode7_get_peer_info"]}
{"id": "C217", "title": "Nothing of earlier peers is reported", "statement": "What is reported about the peers does not depend on what was in the table before.", "quantifier": "all tables and all sequences of datagrams", "why_tests_cant": "A relation between two runs.", "anchors": ["src/ntp/sfptpd_ntpd_client_mode7.c:mode7_get_peer_info"]}
{"id": "C218", "title": "Answers about another peer are refused", "statement": "When the daemon answers a question about a peer with a record about another host, the result is EIO.", "quantifier": "all pairs of addresses, any number of earlier peers", "why_tests_cant": "Every pair of addresses.", "anchors": ["src/ntp/sfptpd_ntpd_client_mode7.c:mode7_get_peer_info", "src/ntp/sfptpd_ntpd_client_mode7.c:cmp_host_address"]}
{"id": "C219", "title": "The clock is only let go of with confirmation", "statement": "Without a key nothing is sent and permission is denied; success is reported only after an answer without error, to one authenticated request for the flags NTP and KERNEL.", "quantifier": "all sequences of datagrams, all keys", "why_tests_cant": "Every sequence of datagrams.", "anchors": ["src/ntp/sfptpd_ntpd_client_mode7.c:mode7_clock_control"]}
{"id": "C220", "title": "Records of daemons without IPv6", "statement": "The shorter records of daemons without IPv6 are read as records about IPv4 addresses, with nothing of what was in the buffer before.", "quantifier": "all records, all contents of the buffer", "why_tests_cant": "Depends on what earlier answers left.", "anchors": ["src/ntp/sfptpd_ntpd_client_mode7.c:mode7_response", "src/ntp/sfptpd_ntpd_client_mode7.c:mode7_get_sys_info", "src/ntp/sfptpd_ntpd_client_mode7.c:mode7_get_peer_info"]}
{"id": "C221", "title": "Old answers are not taken for new ones", "statement": "What was waiting at the socket before the question makes no difference.", "quantifier": "all sequences of datagrams", "why_tests_cant": "Every sequence of datagrams.", "anchors": ["src/ntp/sfptpd_ntpd_client_mode7.c:mode7_query"]}
{"id": "C222", "title": "Looking does not change the daemon", "statement": "The functions that ask for information only send requests of the kinds that read, without authentication, and at most two for each peer and one.", "quantifier": "all sequences of datagrams", "why_tests_cant": "Every sequence of datagrams.", "anchors": ["src/ntp/sfptpd_ntpd_client_mode7.c:mode7_get_sys_info", "src/ntp/sfptpd_ntpd_client_mode7.c:mode7_get_peer_info"]}
{"id": "C223", "title": "Creation of the client", "statement": "A client is created exactly when there is memory, a value for the key and a connected socket; a failure leaves no socket open.", "quantifier": "all outcomes of the calls", "why_tests_cant": "Every combination of failures.", "anchors": ["src/ntp/sfptpd_ntpd_client_mode7.c:sfptpd_ntpclient_mode7_create"]}
{"id": "C224", "title": "What is below nested VLANs is found", "statement": "For an interface that is a VLAN, on a VLAN, and so on, the search through the link table ends with the link that is below all of them, or with an error when a VLAN is on nothing in the table.", "quantifier": "all link tables and links", "why_tests_cant": "Tables may nest to any depth and may be inconsistent.", "anchors": ["src/ptp/sfptpd_ptp_module.c:ptp_parse_interface_topology", "src/ptp/sfptpd_ptp_module.c:ptp_is_interface_vlan", "src/sfptpd_link.c:sfptpd_link_by_if_index"]}
{"id": "C225", "title": "The physical interfaces of a bond, team or bridge", "statement": "The physical interfaces used for a bond, team or bridge are its slaves in the link table, and those of bonds and teams that are slaves, each with its state and capabilities; at most sixteen, and nothing is stored outside the array.", "quantifier": "all link tables, sets of interfaces and earlier contents of the record", "why_tests_cant": "Every table.", "anchors": ["src/ptp/sfptpd_ptp_module.c:parse_bond", "src/ptp/sfptpd_ptp_module.c:parse_nested_bond", "src/ptp/sfptpd_ptp_module.c:parse_team", "src/ptp/sfptpd_ptp_module.c:ptp_probe_bonding"]}
{"id": "C226", "title": "The slaves of a team are in a fixed order", "statement": "Whatever the order in which the kernel lists the links, the record of a team with slaves of different names is the same.", "quantifier": "all link tables and permutations of them", "why_tests_cant": "The number of orders is unbounded.", "anchors": ["src/ptp/sfptpd_ptp_module.c:parse_team", "src/ptp/sfptpd_ptp_module.c:qsort_intfnamecmp"]}
{"id": "C227", "title": "Modes that are not supported are refused", "statement": "A bond or team in a mode other than active-backup and LACP is refused with an error, and the daemon goes on.", "quantifier": "all link tables, links and interfaces", "why_tests_cant": "Every table, with and without slaves.", "anchors": ["src/ptp/sfptpd_ptp_module.c:parse_bond", "src/ptp/sfptpd_ptp_module.c:ptp_probe_bonding"]}
{"id": "C228", "title": "The active interface of a logical one", "statement": "When the search is successful there is an active interface and it is among those found: in an active-backup bond the active slave that the kernel names, in LACP and bridges the first with a link, or else the first.", "quantifier": "all link tables, interfaces and states of links", "why_tests_cant": "Every table and state of the links.", "anchors": ["src/ptp/sfptpd_ptp_module.c:ptp_probe_bonding"]}
{"id": "C229", "title": "Without physical interfaces none is active", "statement": "When no physical interface is found, no interface is active.", "quantifier": "all link tables and earlier contents of the record", "why_tests_cant": "Depends on what the record held before.", "anchors": ["src/ptp/sfptpd_ptp_module.c:ptp_probe_bonding"]}
{"id": "C230", "title": "A bridge over an active-backup bond", "statement": "When the one slave of a bridge is an active-backup bond, the active interface is the active slave of that bond.", "quantifier": "all link tables and interfaces", "why_tests_cant": "Every table.", "anchors": ["src/ptp/sfptpd_ptp_module.c:ptp_probe_bonding", "src/ptp/sfptpd_ptp_module.c:parse_nested_bond"]}
{"id": "C231", "title": "Other links stand for one interface", "statement": "A macvlan stands for the interface that it is on, or else itself, any other link for the interface of its name; when that does not exist or was deleted, ENODEV is returned.", "quantifier": "all links, interfaces and states of deletion", "why_tests_cant": "Every combination.", "anchors": ["src/ptp/sfptpd_ptp_module.c:ptp_probe_bonding"]}
{"id": "C232", "title": "The active slave is marked", "statement": "In the record of an active-backup bond the active slave is marked as primary.", "quantifier": "all link tables as netlink delivers them", "why_tests_cant": "Every table.", "anchors": ["src/ptp/sfptpd_ptp_module.c:parse_bond", "src/ptp/sfptpd_ptp_module.c:parse_nested_bond"]}
{"id": "C233", "title": "The preferred interface is used", "statement": "Among slaves that are up a port uses the one that received the last Sync message, or else the primary one, or else the first with hardware timestamps and the clock in use, or else the first with hardware timestamps, or else the last; when none is up, the first.", "quantifier": "all lists of slaves, clocks and received messages", "why_tests_cant": "Every list and every combination of states.", "anchors": ["src/ptp/sfptpd_ptp_module.c:ptp_get_active_intf"]}
{"id": "C234", "title": "A port does not move without reason", "statement": "When a port has moved to the interface chosen for it and nothing else has changed, the same interface is chosen again.", "quantifier": "all lists of slaves, clocks and received messages", "why_tests_cant": "Every list and every combination of states.", "anchors": ["src/ptp/sfptpd_ptp_module.c:ptp_get_active_intf"]}
{"id": "C235", "title": "The type of timestamps follows capability and configuration", "statement": "Hardware timestamps are used exactly when the interface has them and no instance asks for software timestamps; instances that contradict each other and demands that cannot be met are refused.", "quantifier": "all lists of instances and interfaces", "why_tests_cant": "Any number of instances.", "anchors": ["src/ptp/sfptpd_ptp_module.c:ptp_determine_timestamp_type"]}
{"id": "C236", "title": "Changes of the link table are followed", "statement": "After a change of the link table every port uses the interface to be chosen from the slaves that there are now.", "quantifier": "all link tables, interfaces, ports and earlier records", "why_tests_cant": "Every pair of states.", "anchors": ["src/ptp/sfptpd_ptp_module.c:ptp_handle_bonding_interface_change", "src/ptp/sfptpd_ptp_module.c:ptp_get_active_intf"]}
{"id": "C237", "title": "The alarm tells that there is no interface", "statement": "When the logical interface disappears, the alarm is raised and nothing else changes; the alarm is off only if the port has an interface.", "quantifier": "all link tables, interfaces, ports and earlier records", "why_tests_cant": "Every pair of states.", "anchors": ["src/ptp/sfptpd_ptp_module.c:ptp_handle_bonding_interface_change"]}
{"id": "C238", "title": "Failure to move a port is reported", "statement": "When a port is to be moved to an interface and the network cannot be set up, an error is returned and the alarm raised.", "quantifier": "all link tables, any number of instances and failures", "why_tests_cant": "Any number of instances.", "anchors": ["src/ptp/sfptpd_ptp_module.c:ptp_handle_bonding_interface_change", "src/ptp/ptpd2/ptpd_lib.c:ptpd_change_interface"]}
{"id": "C239", "title": "The record of slaves remains valid", "statement": "What ptpd keeps as a pointer to the record of slaves always points to the record of the interface.", "quantifier": "all sequences of link tables, changes of state and messages", "why_tests_cant": "Every history.", "anchors": ["src/ptp/sfptpd_ptp_module.c:ptp_handle_bonding_interface_change", "src/ptp/ptpd2/ptpd_lib.c:ptpd_change_interface"]}
{"id": "C240", "title": "Timestamps are turned on and off as slaves come and go", "statement": "When slaves change, hardware timestamps are turned off for exactly those that leave and on for those that are capable of them.", "quantifier": "all link tables, interfaces, ports and earlier records", "why_tests_cant": "Every pair of states.", "anchors": ["src/ptp/sfptpd_ptp_module.c:ptp_timestamp_filtering_reconfigure_all", "src/ptp/sfptpd_ptp_module.c:ptp_handle_bonding_interface_change"]}
{"id": "C241", "title": "Logical interfaces are found by name", "statement": "The search for an interface succeeds only if its name is in the link table, and is then about the link below all VLANs; every other case has its error, and a bond without slaves is no error.", "quantifier": "all link tables, names and interfaces", "why_tests_cant": "Every table.", "anchors": ["src/ptp/sfptpd_ptp_module.c:ptp_parse_interface_topology"]}
{"id": "C242", "title": "Accuracy is announced with the tightest code", "statement": "The clock accuracy announced for a clock is the IEEE 1588 code with the smallest bound not below the magnitude of its accuracy; beyond ten seconds, for infinities and for NaN it is 'unknown'.", "quantifier": "all accuracies", "why_tests_cant": "The accuracies are a continuum.", "anchors": ["src/ptp/sfptpd_ptp_module.c:ptp_translate_accuracy_to_enum", "src/ptp/sfptpd_ptp_module.c:ptp_accuracy_map"]}
{"id": "C243", "title": "Accuracy codes are read as the standard says", "statement": "Every accuracy code is read as the bound of the IEEE 1588 table (infinite if it has none), a bound is announced again as its code, and a worse accuracy never gets a better code.", "quantifier": "all codes and all pairs of accuracies", "why_tests_cant": "Comparisons over a continuum.", "anchors": ["src/ptp/sfptpd_ptp_module.c:ptp_translate_accuracy_to_float", "src/ptp/sfptpd_ptp_module.c:ptp_translate_accuracy_to_enum"]}
{"id": "C244", "title": "Clock classes survive being announced", "statement": "The class of a clock is announced with a value that other instances read back as the same class; values are classified as in the standard and better classes have smaller values.", "quantifier": "all classes and all values", "why_tests_cant": "All values of the field.", "anchors": ["src/ptp/sfptpd_ptp_module.c:ptp_translate_clock_class_to_ieee1588", "src/ptp/sfptpd_ptp_module.c:ptp_translate_clock_class_from_ieee1588"]}
{"id": "C245", "title": "State names agree with the states reported", "statement": "The name of the port state in statistics and state files is that of the state reported to the engine with the prefix 'ptp-', marked as alarmed exactly for a slave with alarms.", "quantifier": "all port states and alarms", "why_tests_cant": "All alarm words.", "anchors": ["src/ptp/sfptpd_ptp_module.c:ptp_state_text", "src/ptp/sfptpd_ptp_module.c:ptp_translate_state"]}
{"id": "C246", "title": "Instances are refused exactly for a duplicate domain", "statement": "The PTP instances are created if and only if no two of them are configured with the same domain on the same interface with the same transport.", "quantifier": "all lists of instance configurations", "why_tests_cant": "Every configuration, of any number of instances.", "anchors": ["src/ptp/sfptpd_ptp_module.c:ptp_create_instances", "src/ptp/sfptpd_ptp_module.c:ptp_validate_new_instance"]}
{"id": "C247", "title": "Instances are grouped by interface and transport", "statement": "After creation every interface object carries exactly the instances configured for its interface and transport, latest first, with profile and version defaults set; it is represented by the first of them, and no two objects are for the same interface and transport.", "quantifier": "all accepted lists of instance configurations", "why_tests_cant": "Every configuration.", "anchors": ["src/ptp/sfptpd_ptp_module.c:ptp_ensure_interface_created", "src/ptp/sfptpd_ptp_module.c:ptp_find_interface_by_name_transport", "src/ptp/sfptpd_ptp_module.c:ptp_create_instances"]}
{"id": "C248", "title": "Refusal and shutdown leave nothing behind", "statement": "When a configuration is refused, and when the module is shut down, every instance created is destroyed exactly once and no interface object remains.", "quantifier": "all lists of instance configurations", "why_tests_cant": "Every configuration and point of failure.", "anchors": ["src/ptp/sfptpd_ptp_module.c:ptp_destroy_instances", "src/ptp/sfptpd_ptp_module.c:ptp_destroy_instance", "src/ptp/sfptpd_ptp_module.c:ptp_destroy_interface"]}
{"id": "C249", "title": "Walking the instances visits each once", "statement": "Going from the first instance to the next ends after visiting every configured instance exactly once.", "quantifier": "all accepted lists of instance configurations", "why_tests_cant": "Every arrangement of interfaces and instances.", "anchors": ["src/ptp/sfptpd_ptp_module.c:ptp_get_first_instance", "src/ptp/sfptpd_ptp_module.c:ptp_get_next_instance"]}
{"id": "C250", "title": "Engine information reaches the right instances", "statement": "Grandmaster information goes to every instance but its originator, in the codes of the standard; leap second information goes to all; and the creator of the module is told of each instance as far as its buffer reaches.", "quantifier": "all lists of instances, originators, classes, accuracies and buffer sizes", "why_tests_cant": "Every arrangement.", "anchors": ["src/ptp/sfptpd_ptp_module.c:ptp_on_update_gm_info", "src/ptp/sfptpd_ptp_module.c:ptp_on_update_leap_second", "src/ptp/sfptpd_ptp_module.c:sfptpd_ptp_module_create"]}
{"id": "C251", "title": "Control messages change exactly the masked flags", "statement": "A control message sets the flags in its mask to the values given and leaves all others; ptpd is told exactly if a flag changed.", "quantifier": "all flag words and masks", "why_tests_cant": "2^96 combinations.", "anchors": ["src/ptp/sfptpd_ptp_module.c:ptp_on_control"]}
{"id": "C252", "title": "The engine knows the current state of an instance", "statement": "After every tick the engine's last information about an instance matches the port's state, the alarms, the clock, the grandmaster, its class, accuracy and traceability, the steps removed and the clustering score.", "quantifier": "all sequences of ticks, control messages and link tables", "why_tests_cant": "Unbounded sequences.", "anchors": ["src/ptp/sfptpd_ptp_module.c:ptp_update_instance_state", "src/ptp/sfptpd_ptp_module.c:ptp_translate_master_characteristics"]}
{"id": "C253", "title": "The status published on the network is current", "statement": "After every tick the status last published on the network carries the current alarms, whether the instance is selected, and whether it is synchronised.", "quantifier": "all sequences of ticks, control messages and link tables", "why_tests_cant": "Unbounded sequences.", "anchors": ["src/ptp/sfptpd_ptp_module.c:ptp_update_instance_state", "src/ptp/sfptpd_ptp_module.c:ptp_convergence_update"]}
{"id": "C254", "title": "Clustering uses the current offset", "statement": "The offset that an instance contributes to clustering in a tick, and the clustering score it computes, are from the offset found by that tick.", "quantifier": "all states and snapshots", "why_tests_cant": "Sequences of ticks.", "anchors": ["src/ptp/sfptpd_ptp_module.c:ptp_update_instance_state"]}
{"id": "C255", "title": "The announced leap second is scheduled", "statement": "Whenever a tick finds the instance selected and a slave, the engine has been asked for exactly the leap second that the master announces.", "quantifier": "all sequences of ticks and control messages", "why_tests_cant": "The order of announcement and selection matters.", "anchors": ["src/ptp/sfptpd_ptp_module.c:ptp_update_instance_state"]}
{"id": "C256", "title": "Synchronised means slave, no alarm and converged", "statement": "After a tick an instance counts as synchronised exactly if the port is a slave, no alarm is set, timestamps are being processed and the convergence measure accepts the offset.", "quantifier": "all states, alarm and flag words, snapshots", "why_tests_cant": "All alarm and flag words.", "anchors": ["src/ptp/sfptpd_ptp_module.c:ptp_convergence_update", "src/ptp/sfptpd_ptp_module.c:ptp_get_alarms_snapshot"]}
{"id": "C257", "title": "Asking for the status gives what was reported", "statement": "The answer to a request for the status of an instance is the same as the status reported at the last change.", "quantifier": "all states and message contents", "why_tests_cant": "The previous contents of messages.", "anchors": ["src/ptp/sfptpd_ptp_module.c:ptp_on_get_status", "src/ptp/sfptpd_ptp_module.c:ptp_update_instance_state"]}
{"id": "C258", "title": "The PTP sockets are polled", "statement": "After every tick the sockets that ptpd has open are in the epoll set of the thread, and no closed ones are, whenever and however often sockets were reopened before.", "quantifier": "all sequences of link tables, faults and ticks, all file descriptor numbers", "why_tests_cant": "Numbers chosen by the kernel and unbounded sequences.", "anchors": ["src/ptp/sfptpd_ptp_module.c:ptp_update_interface_state", "src/ptp/sfptpd_ptp_module.c:ptp_update_sockets"]}
{"id": "C259", "title": "An invalid discriminator measurement is not used", "statement": "The offset from the BMC discriminator is taken as valid exactly if the discriminator could be read and compared with the clock of the instance.", "quantifier": "all discriminators and results of the calls", "why_tests_cant": "Failures of clock comparison.", "anchors": ["src/ptp/sfptpd_ptp_module.c:ptp_measure_offset_from_discriminator"]}
{"id": "C260", "title": "The convergence threshold fits the timestamping", "statement": "After start-up the convergence threshold of every instance is the configured one, or the default for the kind of timestamping in use.", "quantifier": "all instances and kinds of timestamping", "why_tests_cant": "Depends on the order of initialisation over all configurations.", "anchors": ["src/ptp/sfptpd_ptp_module.c:ptp_set_convergence_threshold", "src/ptp/sfptpd_ptp_module.c:ptp_start_instance", "src/ptp/sfptpd_ptp_module.c:ptp_on_startup"]}
{"id": "C261", "title": "Multicast is used where an instance needs it", "statement": "An interface joins the PTP multicast groups exactly if an instance configured on it uses multicast.", "quantifier": "all lists of instance configurations", "why_tests_cant": "Every combination of instances on an interface.", "anchors": ["src/ptp/sfptpd_ptp_module.c:ptp_intf_aggregate_instance_requirements", "src/ptp/sfptpd_ptp_module.c:ptp_get_config_for_interface", "src/ptp/sfptpd_ptp_module.c:ptp_on_startup"]}
{"id": "C262", "title": "The link table follows the kernel", "statement": "Whatever messages arrive, the table has one row for each interface whose last link message announced it, none for one whose last message withdrew it, and each row carries what that message said.", "quantifier": "all sequences of messages", "why_tests_cant": "Unbounded sequences of messages.", "anchors": ["src/sfptpd_netlink.c:netlink_handle_link"]}
{"id": "C263", "title": "There is room for every interface", "statement": "Link messages are never refused for want of room and the table never holds more rows than were allocated.", "quantifier": "all sequences of link messages", "why_tests_cant": "Any number of interfaces.", "anchors": ["src/sfptpd_netlink.c:netlink_handle_link"]}
{"id": "C264", "title": "An update keeps what was learnt elsewhere", "statement": "A new description of a known interface keeps its timestamping capabilities, its driver statistics and, for a team, its mode and active port.", "quantifier": "all tables and link messages", "why_tests_cant": "All tables and messages.", "anchors": ["src/sfptpd_netlink.c:netlink_handle_link"]}
{"id": "C265", "title": "The recorded master is the announced one", "statement": "After a link message the master recorded for its interface is the one announced, or none if none was.", "quantifier": "all tables and link messages", "why_tests_cant": "All tables and messages.", "anchors": ["src/sfptpd_netlink.c:netlink_handle_link"]}
{"id": "C266", "title": "Bonding characteristics are those announced", "statement": "An interface announced for the first time has the bonding mode and active slave announced if it is a bond and none otherwise.", "quantifier": "all link messages", "why_tests_cant": "All messages.", "anchors": ["src/sfptpd_netlink.c:netlink_handle_link"]}
{"id": "C267", "title": "Team options act by their own attributes", "statement": "Each option in a message about a team sets the mode or the active port of that team by its own name and value.", "quantifier": "all lists of options", "why_tests_cant": "Unbounded lists of options.", "anchors": ["src/sfptpd_netlink.c:netlink_handle_genl_team", "src/sfptpd_netlink.c:team_opt_apply_mode", "src/sfptpd_netlink.c:team_opt_apply_activeport"]}
{"id": "C268", "title": "Reading a bitset stays inside it", "statement": "Reading a capability bitset never goes outside its payload; the first word is read if the payload is long enough and otherwise a failure is reported.", "quantifier": "all bitset sizes and payloads", "why_tests_cant": "2^32 sizes and all payloads.", "anchors": ["src/sfptpd_netlink.c:attr_get_bitset32"]}
{"id": "C269", "title": "Driver statistics are indexed correctly", "statement": "A list of driver statistics gives its interface, and no other, the number of statistics and for each configured key the index under which it was last listed, or minus one; no store goes outside the array.", "quantifier": "all lists of strings and keys", "why_tests_cant": "Unbounded lists.", "anchors": ["src/sfptpd_netlink.c:netlink_handle_genl_ethtool", "src/sfptpd_netlink.c:sfptpd_netlink_set_driver_stats"]}
{"id": "C270", "title": "Timestamping capabilities reach the right interface", "statement": "A complete timestamping reply gives its interface, and no other, the clock and capabilities reported and marks them as known.", "quantifier": "all tables and replies", "why_tests_cant": "All tables and replies.", "anchors": ["src/sfptpd_netlink.c:netlink_handle_genl_ethtool"]}
{"id": "C271", "title": "Every message of a datagram is handled", "statement": "All messages received in one datagram are handled, in order.", "quantifier": "all datagrams", "why_tests_cant": "All sequences of messages.", "anchors": ["src/sfptpd_netlink.c:netlink_service_fds", "src/sfptpd_netlink.c:netlink_send_ethtool_query"]}
{"id": "C272", "title": "New interfaces are asked for their capabilities", "statement": "When an interface is first announced its timestamping capabilities are asked for, or it is remembered that they have to be.", "quantifier": "all tables, link messages and results of sending", "why_tests_cant": "All tables and failures.", "anchors": ["src/sfptpd_netlink.c:netlink_handle_link", "src/sfptpd_netlink.c:netlink_send_ethtool_query"]}
{"id": "C273", "title": "Interfaces are asked once", "statement": "The timestamping capabilities of an interface are asked for once.", "quantifier": "all tables and scans", "why_tests_cant": "All tables.", "anchors": ["src/sfptpd_netlink.c:netlink_rescan_ethtool", "src/sfptpd_netlink.c:netlink_send_ethtool_query"]}
{"id": "C274", "title": "Change marks are exact", "statement": "Comparing two tables marks a row as up exactly when the interface is new, as changed exactly when it differs in something that matters, and alters nothing else.", "quantifier": "all pairs of tables in order", "why_tests_cant": "All pairs of tables.", "anchors": ["src/sfptpd_netlink.c:sfptpd_netlink_service_fds"]}
{"id": "C275", "title": "A change is reported exactly when there is one", "statement": "Comparing two tables in order never fails an assertion and reports a change exactly when an interface has come, has gone, or differs in something that matters.", "quantifier": "all pairs of tables in order", "why_tests_cant": "All pairs of tables.", "anchors": ["src/sfptpd_netlink.c:sfptpd_netlink_service_fds", "src/sfptpd_netlink.c:link_ifindex_compar"]}
{"id": "C276", "title": "Servicing never ends the process", "statement": "Servicing the sockets never fails an assertion, whatever well-formed messages and errors are received.", "quantifier": "all sequences of calls", "why_tests_cant": "Unbounded sequences.", "anchors": ["src/sfptpd_netlink.c:sfptpd_netlink_service_fds", "src/sfptpd_netlink.c:netlink_service_fds"]}
{"id": "C277", "title": "A published table is complete", "statement": "A positive result of servicing is the version of a table just published: everything received, sorted, with one reference for each consumer, and different from the last in something that matters.", "quantifier": "all states and messages", "why_tests_cant": "Unbounded sequences.", "anchors": ["src/sfptpd_netlink.c:sfptpd_netlink_service_fds"]}
{"id": "C278", "title": "Nothing is published without need", "statement": "A result of zero leaves published tables alone, keeps what was received, and means that nothing that matters changed unless the caller is coalescing.", "quantifier": "all states and messages", "why_tests_cant": "Unbounded sequences.", "anchors": ["src/sfptpd_netlink.c:sfptpd_netlink_service_fds"]}
{"id": "C279", "title": "Held tables are not altered", "statement": "A published table with references is not altered by servicing and its place is not reused.", "quantifier": "all states and messages", "why_tests_cant": "Unbounded sequences.", "anchors": ["src/sfptpd_netlink.c:sfptpd_netlink_service_fds"]}
{"id": "C280", "title": "Versions are found or refused", "statement": "A version that is kept is found; asking for a version that is not kept is answered with ENOENT.", "quantifier": "all states and versions", "why_tests_cant": "Unbounded histories.", "anchors": ["src/sfptpd_netlink.c:netlink_find_version", "src/sfptpd_netlink.c:sfptpd_netlink_get_table"]}
{"id": "C281", "title": "Giving back a table takes one reference", "statement": "Giving back a published table takes exactly one reference from it and alters nothing else while no servicing has been postponed.", "quantifier": "all states", "why_tests_cant": "Unbounded histories.", "anchors": ["src/sfptpd_netlink.c:sfptpd_netlink_release_table"]}
{"id": "C282", "title": "Servicing is postponed exactly while the oldest table is held", "statement": "Servicing is refused, with nothing received or altered, exactly when the table to be overwritten next still has references; the refusal is remembered.", "quantifier": "all states and messages", "why_tests_cant": "Unbounded histories.", "anchors": ["src/sfptpd_netlink.c:sfptpd_netlink_service_fds"]}
{"id": "C283", "title": "Waiting delivers a table or a reason", "statement": "Waiting for the first table either delivers the table just published or returns with an error number.", "quantifier": "all sequences of events while waiting", "why_tests_cant": "Unbounded sequences.", "anchors": ["src/sfptpd_netlink.c:sfptpd_netlink_table_wait"]}
{"id": "C284", "title": "Distribution of tables never ends the engine", "statement": "No event makes the engine fail an assertion, miss a table it was promised or give one back too often.", "quantifier": "all runs", "why_tests_cant": "Unbounded interleavings of kernel messages, timers and releases.", "anchors": ["src/sfptpd_engine.c:engine_handle_new_link_table", "src/sfptpd_engine.c:engine_on_user_fds", "src/sfptpd_engine.c:on_link_table_release"]}
{"id": "C285", "title": "References are holders", "statement": "The references of a table are the subscribers that hold it plus the engine while it is the newest; nobody holds the table being written.", "quantifier": "all runs", "why_tests_cant": "Unbounded interleavings.", "anchors": ["src/sfptpd_engine.c:engine_handle_new_link_table", "src/sfptpd_engine.c:on_link_table_release", "src/sfptpd_netlink.c:sfptpd_netlink_release_table"]}
{"id": "C286", "title": "Each table is delivered once", "statement": "An event either publishes and sends nothing or publishes exactly the next version and sends it once to each subscriber; tables that subscribers hold keep their contents.", "quantifier": "all runs", "why_tests_cant": "Unbounded interleavings.", "anchors": ["src/sfptpd_engine.c:engine_handle_new_link_table", "src/sfptpd_engine.c:engine_on_user_fds", "src/sfptpd_engine.c:on_link_table_release"]}
{"id": "C287", "title": "No change of the links is forgotten", "statement": "If what was received differs in something that matters from the newest table then the coalescing timer is running or a subscriber still holds the oldest table.", "quantifier": "all runs", "why_tests_cant": "Unbounded interleavings.", "anchors": ["src/sfptpd_engine.c:engine_on_user_fds", "src/sfptpd_netlink.c:sfptpd_netlink_service_fds"]}
{"id": "C288", "title": "The coalescing timer publishes", "statement": "After the coalescing timer has fired everything received is published unless a subscriber still holds the oldest table.", "quantifier": "all runs", "why_tests_cant": "Unbounded interleavings.", "anchors": ["src/sfptpd_engine.c:engine_on_user_fds"]}
{"id": "C289", "title": "Listening stops only for want of space", "statement": "The engine stops listening to the kernel only while a subscriber holds the oldest table.", "quantifier": "all runs", "why_tests_cant": "Unbounded interleavings.", "anchors": ["src/sfptpd_engine.c:engine_on_user_fds", "src/sfptpd_engine.c:on_link_table_release"]}
{"id": "C290", "title": "The interface module is told exactly what changed", "statement": "Whenever a table is published the interface module is told, once each, of exactly the interfaces that are new or differ in something that matters and of exactly those that have gone; otherwise of nothing.", "quantifier": "all runs", "why_tests_cant": "Unbounded interleavings.", "anchors": ["src/sfptpd_engine.c:engine_handle_new_link_table"]}
{"id": "C291", "title": "The search for a freerun clock ends", "statement": "Whatever the link table, looking for the hardware clock below a configured interface comes to an end.", "quantifier": "all link tables and links", "why_tests_cant": "All tables, including those with links in other namespaces and cycles.", "anchors": ["src/freerun/sfptpd_freerun_module.c:freerun_find_physical_link"]}
{"id": "C292", "title": "The best clock below an interface is used", "statement": "Looking for a clock finds one exactly if an interface below the configured one, through VLANs, bonds and teams, has a clock of its own, and it is the first one that none betters in holdover, accuracy and stratum.", "quantifier": "all link tables, links and clocks", "why_tests_cant": "Unbounded hierarchies of links.", "anchors": ["src/freerun/sfptpd_freerun_module.c:freerun_find_physical_link"]}
{"id": "C293", "title": "Freerun instances have clocks of their own", "statement": "When the freerun module has started every instance has the clock of its configured interface, no two share one, and each of these clocks, and no other, was set once from the system clock.", "quantifier": "all configurations and link tables", "why_tests_cant": "Any number of instances and all tables.", "anchors": ["src/freerun/sfptpd_freerun_module.c:freerun_on_startup", "src/freerun/sfptpd_freerun_module.c:freerun_select_clock", "src/freerun/sfptpd_freerun_module.c:freerun_find_instance_by_clock"]}
{"id": "C294", "title": "Why the freerun module does not start", "statement": "If the freerun module does not start, the error is that of the first instance that has no interface, no clock, a clock in use or a clock that cannot be set, and only clocks of instances up to it were set.", "quantifier": "all configurations, link tables and failures", "why_tests_cant": "All positions of the failure.", "anchors": ["src/freerun/sfptpd_freerun_module.c:freerun_on_startup", "src/freerun/sfptpd_freerun_module.c:freerun_select_clock"]}
{"id": "C295", "title": "Control flags of freerun instances", "statement": "After any messages each control flag of an instance is what the last control message that covers it says, and as it was if there is none; messages change nothing else of an instance.", "quantifier": "all sequences of messages", "why_tests_cant": "Unbounded sequences of messages.", "anchors": ["src/freerun/sfptpd_freerun_module.c:freerun_on_control", "src/freerun/sfptpd_freerun_module.c:freerun_on_message"]}
{"id": "C296", "title": "Freerun messages are answered", "statement": "A message is handled unless it names no instance of the module or asks for the topology of an instance not selected; a sender that waits is replied to; status is that of a slave without alarms and offset with the configured values; clocks are stepped as asked and not otherwise; saving covers every instance.", "quantifier": "all sequences of messages", "why_tests_cant": "Unbounded sequences of messages.", "anchors": ["src/freerun/sfptpd_freerun_module.c:freerun_on_message", "src/freerun/sfptpd_freerun_module.c:freerun_on_get_status", "src/freerun/sfptpd_freerun_module.c:freerun_on_step_clock", "src/freerun/sfptpd_freerun_module.c:freerun_on_save_state", "src/freerun/sfptpd_freerun_module.c:freerun_on_write_topology"]}
{"id": "C297", "title": "Creating the freerun module", "statement": "Creating the module succeeds exactly if memory is available and the thread starts; the buffer then tells its instances in order and is otherwise cleared; shutting it down frees what it holds, and a module that could not be created leaves no memory allocated.", "quantifier": "all numbers of instances, buffer sizes and failures", "why_tests_cant": "Failure of every allocation.", "anchors": ["src/freerun/sfptpd_freerun_module.c:sfptpd_freerun_module_create", "src/freerun/sfptpd_freerun_module.c:freerun_create_instances", "src/freerun/sfptpd_freerun_module.c:freerun_on_shutdown"]}
{"id": "C298", "title": "The traceability option", "statement": "The option for the traceability of a freerun clock is accepted exactly if all its words are known, and then the clock is traceable in just what is listed.", "quantifier": "all lists of words", "why_tests_cant": "Unbounded lists.", "anchors": ["src/freerun/sfptpd_freerun_module.c:parse_clock_traceability"]}
{"id": "C299", "title": "Texts of masks fit into their buffers", "statement": "Writing a mask of alarms, constraints or flags as text never leaves the buffer, always ends the string, names exactly the bits that are set if there is room and otherwise ends in dots.", "quantifier": "all masks, maps, buffer sizes and former contents", "why_tests_cant": "2^32 masks and every buffer size.", "anchors": ["src/sfptpd_sync_module.c:sync_module_bitmask_to_text"]}
{"id": "C300", "title": "Alarms can be read back from their text", "statement": "The words of the text of alarms are the names of exactly those that are set, in the buffers that the engine and the sync modules use.", "quantifier": "all sets of alarms", "why_tests_cant": "2^17 sets of alarms and any contents of the buffer.", "anchors": ["src/sfptpd_sync_module.c:sfptpd_sync_module_alarms_text", "src/sfptpd_sync_module.c:alarm_texts"]}
{"id": "C301", "title": "Alarms in JSON", "statement": "Alarms are written to JSON as the quoted and separated names of those that are set, and the length returned is that of the text written.", "quantifier": "all sets of alarms and separators", "why_tests_cant": "2^17 sets of alarms.", "anchors": ["src/sfptpd_sync_module.c:sfptpd_sync_module_alarms_stream"]}
{"id": "C302", "title": "Changes of the grandmaster are passed on", "statement": "Whatever changes in what the selected instance reports about its grandmaster is passed on to the other instances.", "quantifier": "all pairs of grandmasters", "why_tests_cant": "All values, including those that are not numbers.", "anchors": ["src/sfptpd_sync_module.c:sfptpd_sync_module_gm_info_equal", "src/sfptpd_engine.c:on_sync_instance_state_changed"]}
{"id": "C303", "title": "An interface object stands for one index", "statement": "Over any sequence of hotplug events and requests, interface objects are never lost, keep their interface index, no two have the same one, and looking up an index finds its object; a link that is inserted makes a new object exactly if its index is new.", "quantifier": "all tables, sequences of events and answers of the kernel", "why_tests_cant": "Unbounded sequences of events.", "anchors": ["src/sfptpd_interface.c:sfptpd_interface_hotplug_insert", "src/sfptpd_interface.c:sfptpd_interface_hotplug_remove", "src/sfptpd_interface.c:sfptpd_interface_find_by_if_index"]}
{"id": "C304", "title": "Looking up a name finds the interface that has it", "statement": "Looking up the name of an interface that is there finds it, as long as the names that the program knows are those of the kernel.", "quantifier": "all sequences of events and answers of the kernel", "why_tests_cant": "Unbounded sequences of events with interfaces renamed, removed and replugged.", "anchors": ["src/sfptpd_interface.c:sfptpd_interface_find_by_name", "src/sfptpd_interface.c:sfptpd_interface_hotplug_insert", "src/sfptpd_interface.c:interface_handle_rename"]}
{"id": "C305", "title": "Following aliases ends", "statement": "Whatever interfaces are inserted, renamed and removed, following the aliases of an interface object comes to an end.", "quantifier": "all sequences of events and answers of the kernel", "why_tests_cant": "Unbounded sequences of events.", "anchors": ["src/sfptpd_interface.c:interface_get_canonical_with_lock", "src/sfptpd_interface.c:interface_handle_rename"]}
{"id": "C306", "title": "Handles of interfaces that are gone are safe", "statement": "A handle stands either for one interface that is there, and gives what that has, or for one that is gone, and then every question has a neutral answer, no request is made and nothing changes; removing an interface makes its handle such.", "quantifier": "all tables and handles", "why_tests_cant": "All tables, including chains of aliases of any length.", "anchors": ["src/sfptpd_interface.c:interface_get_canonical_with_lock", "src/sfptpd_interface.c:sfptpd_interface_get_name", "src/sfptpd_interface.c:sfptpd_interface_get_mac_addr", "src/sfptpd_interface.c:sfptpd_interface_get_ifindex", "src/sfptpd_interface.c:sfptpd_interface_get_clock", "src/sfptpd_interface.c:sfptpd_interface_ioctl", "src/sfptpd_interface.c:sfptpd_interface_hotplug_remove"]}
{"id": "C307", "title": "Requests reach the device of the interface", "statement": "A request made through an interface handle goes to the device that has the index of the interface.", "quantifier": "all tables and answers of the kernel", "why_tests_cant": "Names change at any time.", "anchors": ["src/sfptpd_interface.c:sfptpd_interface_ioctl", "src/sfptpd_interface.c:interface_check_hotplug_rename"]}
{"id": "C308", "title": "Enabling hardware time stamping", "statement": "Hardware time stamping is asked for at most five times, again only if the device was busy, with the best receive filter that the interface has, not at all if it is on; it is taken to be on exactly if the device accepted or refuses changes but is set up well enough.", "quantifier": "all tables and answers of the kernel", "why_tests_cant": "All sequences of results of the device.", "anchors": ["src/sfptpd_interface.c:sfptpd_interface_hw_timestamping_enable"]}
{"id": "C309", "title": "Capabilities of interfaces", "statement": "An interface that is said to be capable of PTP with hardware time stamps can stamp packets that it sends and receives and has a clock.", "quantifier": "all time stamping information", "why_tests_cant": "2^96 sets of bits.", "anchors": ["src/sfptpd_interface.c:sfptpd_interface_ptp_caps", "src/sfptpd_interface.c:sfptpd_interface_rx_ts_caps", "src/sfptpd_interface.c:sfptpd_interface_supports_ptp", "src/sfptpd_interface.c:sfptpd_interface_supports_pps", "src/sfptpd_interface.c:interface_is_ptp_capable"]}
{"id": "C310", "title": "Which links become interfaces", "statement": "A link becomes an interface exactly if it is Ethernet, not wireless, and either physical and not virtual or a macvlan; its class goes by vendor and device; otherwise the interface with its index, if there was one, is gone.", "quantifier": "all links and answers of the kernel", "why_tests_cant": "All combinations of kinds and attributes.", "anchors": ["src/sfptpd_interface.c:interface_check_suitability", "src/sfptpd_interface.c:sfptpd_interface_hotplug_insert"]}
{"id": "C311", "title": "Start-up takes in every suitable link", "statement": "At start-up there is one live interface for each suitable link, in their order, and a link that lacks what is needed does not stop the program from starting.", "quantifier": "all links, configurations and answers of the kernel", "why_tests_cant": "Any number of links.", "anchors": ["src/sfptpd_interface.c:sfptpd_interface_initialise", "src/sfptpd_interface.c:interface_init", "src/sfptpd_interface.c:interface_free"]}
{"id": "C312", "title": "Memory for interface statistics", "statement": "When the program ends all memory for the statistics of interfaces has been given back.", "quantifier": "all sequences of events", "why_tests_cant": "Unbounded sequences of events.", "anchors": ["src/sfptpd_interface.c:interface_driver_stats_init", "src/sfptpd_interface.c:sfptpd_interface_shutdown"]}
{"id": "C313", "title": "NIC numbers", "statement": "Two interfaces that are there have the same NIC number exactly if they have the same clock, and a number is never changed.", "quantifier": "all sequences of events and answers of the kernel", "why_tests_cant": "Unbounded sequences of events.", "anchors": ["src/sfptpd_interface.c:interface_assign_nic_id", "src/sfptpd_interface.c:sfptpd_interface_hotplug_insert", "src/sfptpd_interface.c:sfptpd_interface_initialise"]}
{"id": "C314", "title": "The helper opens only clock devices", "statement": "Whatever bytes the privileged helper receives and whatever its memory holds, every file it opens for a caller is /dev/pps or /dev/ptp followed by digits and nothing else; and such a file is opened, handed over and closed when asked for.", "quantifier": "all sequences of messages, errors and contents of memory", "why_tests_cant": "The contents of messages are unbounded; a test can only try some names.", "anchors": ["src/priv_helper/sfptpd_priv_helper.c:op_open_dev", "src/priv_helper/sfptpd_priv_helper.c:server", "src/priv_helper/sfptpd_priv_helper.c:permitted_devices"]}
{"id": "C315", "title": "The helper does only what it is asked", "statement": "Everything the privileged helper does beyond answering is asked for by the request it has just received.", "quantifier": "all sequences of messages, errors and contents of memory", "why_tests_cant": "Depends on what uninitialised memory holds.", "anchors": ["src/priv_helper/sfptpd_priv_helper.c:server", "src/priv_helper/sfptpd_priv_helper.c:op_chrony_control"]}
{"id": "C316", "title": "The helper ends with the daemon", "statement": "Once the privileged helper finds the connection to the daemon closed, it ends.", "quantifier": "all sequences of messages", "why_tests_cant": "Unbounded runs.", "anchors": ["src/priv_helper/sfptpd_priv_helper.c:server"]}
{"id": "C317", "title": "The helper keeps no descriptors", "statement": "Every descriptor made in serving a request is closed by the helper in the same turn.", "quantifier": "all sequences of messages and results of system calls", "why_tests_cant": "Every combination of failures.", "anchors": ["src/priv_helper/sfptpd_priv_helper.c:server", "src/priv_helper/sfptpd_priv_helper.c:op_open_chrony", "src/priv_helper/sfptpd_priv_helper.c:op_open_dev"]}
{"id": "C318", "title": "Connecting to chronyd", "statement": "If all steps of connecting to chronyd succeed, the socket is handed over open with its path in place; if a step fails, its error and its name are told, the socket is closed and no path is left; only a connection in progress is handed over with its error.", "quantifier": "all results of system calls", "why_tests_cant": "Every combination of failures.", "anchors": ["src/crny/sfptpd_crny_helper.c:sfptpd_crny_helper_connect"]}
{"id": "C319", "title": "A device handed over is a device", "statement": "A descriptor that opening a device returns is the one the helper sent, or the one the attempt of the daemon itself gave.", "quantifier": "all states, results of sending, answers and results of system calls", "why_tests_cant": "The helper may die at any moment.", "anchors": ["src/sfptpd_priv.c:sfptpd_priv_open_dev", "src/sfptpd_priv.c:sfptpd_priv_rpc"]}
{"id": "C320", "title": "Success of the control of chronyd", "statement": "If controlling chronyd is reported to have succeeded, the helper has answered that it succeeded, or the daemon has done it itself with success.", "quantifier": "all states, results of sending and answers", "why_tests_cant": "The helper may die at any moment.", "anchors": ["src/sfptpd_priv.c:sfptpd_priv_chrony_control", "src/sfptpd_priv.c:sfptpd_priv_rpc"]}
{"id": "C321", "title": "A helper that is started answers", "statement": "If a helper is configured and starting it succeeds, it has answered; if the exchange fails, an error is returned and no connection is kept.", "quantifier": "all results of system calls", "why_tests_cant": "The helper may die at any moment.", "anchors": ["src/sfptpd_priv.c:sfptpd_priv_start_helper", "src/sfptpd_priv.c:priv_sync"]}
{"id": "C322", "title": "The step that failed is told", "statement": "When chronyd could not be connected to, the caller gets the error and the name of the step that failed.", "quantifier": "all answers of the helper and results of system calls", "why_tests_cant": "Every combination of failures.", "anchors": ["src/sfptpd_priv.c:sfptpd_priv_open_chrony"]}
{"id": "C323", "title": "Threads get their turn with the helper", "statement": "A thread waiting for its turn to use the helper can always get it, and two threads never use the connection at the same time.", "quantifier": "all numbers of threads and all interleavings", "why_tests_cant": "Interleavings of any number of threads.", "anchors": ["src/sfptpd_priv.c:sfptpd_priv_rpc"]}
{"id": "C324", "title": "The daemon outlives the helper", "statement": "Losing the helper does not end the daemon: the call returns, the failure is reported once, and this call and all later ones are made by the daemon itself.", "quantifier": "all states and all moments of the loss", "why_tests_cant": "The helper may die at any moment.", "anchors": ["src/sfptpd_priv.c:sfptpd_priv_rpc", "src/sfptpd_priv.c:sfptpd_priv_fail", "src/sfptpd_priv.c:sfptpd_priv_open_dev"]}
{"id": "C325", "title": "Turning clock control off and on leaves the file as it was", "statement": "In an environment file of whole lines and whole sections, after any succession of operations the lines of the user stand as they did, in their order; behind them is one section if the last operation turned clock control off, and none otherwise.", "quantifier": "all files and all sequences of operations", "why_tests_cant": "Unbounded files and sequences.", "anchors": ["src/crny/sfptpd_crny_helper.c:edit_env"]}
{"id": "C326", "title": "No line of the user is lost", "statement": "Editing an environment file keeps every line that does not stand between the first and the last line of a section.", "quantifier": "all files", "why_tests_cant": "Unbounded files.", "anchors": ["src/crny/sfptpd_crny_helper.c:edit_env"]}
{"id": "C327", "title": "The options of the user stay in force", "statement": "If the last line giving chronyd its options sets them to v, then after clock control is turned off the section at the end of the file sets them to v -x; if no line gives options, it sets them to -x.", "quantifier": "all files with or without a newline at the end", "why_tests_cant": "Unbounded files.", "anchors": ["src/crny/sfptpd_crny_helper.c:edit_env", "src/crny/sfptpd_crny_helper.c:env_files"]}
{"id": "C328", "title": "Editing stays within the file", "statement": "Editing an environment file of text never reads or writes outside the mapping of the file.", "quantifier": "all files", "why_tests_cant": "Unbounded files; the size of a page matters.", "anchors": ["src/crny/sfptpd_crny_helper.c:edit_env"]}
{"id": "C329", "title": "Restarting chronyd", "statement": "chronyd is restarted exactly if editing succeeded and the operation asks for it; where systemctl does not exist it is restarted with service; success is told exactly if the last command succeeded.", "quantifier": "all operations and exit codes", "why_tests_cant": "Every combination of exit codes.", "anchors": ["src/crny/sfptpd_crny_helper.c:sfptpd_crny_helper_control"]}
{"id": "C330", "title": "Success of editing", "statement": "Editing the environment files is reported to have succeeded exactly if at least one file has been edited.", "quantifier": "all results of system calls for any number of files", "why_tests_cant": "Every combination of failures.", "anchors": ["src/crny/sfptpd_crny_helper.c:edit_env"]}
{"id": "C331", "title": "Settings of PTP instances are within limits", "statement": "Whatever options are given in whatever order on the command line and in the file, if the configuration is accepted then every PTP instance is created with intervals and timeouts allowed by its profile and with numbers that fit the fields and filters they are used for.", "quantifier": "all configurations", "why_tests_cant": "Options interact across sections and orders.", "anchors": ["src/ptp/sfptpd_ptp_config.c:parse_ptp_profile", "src/ptp/sfptpd_ptp_config.c:parse_announce_pkt_interval", "src/ptp/sfptpd_ptp_config.c:ptp_config_create"]}
{"id": "C332", "title": "The delay mechanism is one of the profile", "statement": "Every instance measures the path with a mechanism that its profile supports.", "quantifier": "all configurations", "why_tests_cant": "Depends on the order of options.", "anchors": ["src/ptp/sfptpd_ptp_config.c:parse_ptp_profile", "src/ptp/sfptpd_ptp_config.c:parse_delay_mechanism"]}
{"id": "C333", "title": "Communication capabilities need version 2.1", "statement": "An instance announces its communication capabilities only with version 2.1 of the protocol; asking for them with version 2.0 is refused.", "quantifier": "all configurations", "why_tests_cant": "Depends on the order of options.", "anchors": ["src/ptp/sfptpd_ptp_config.c:parse_announce_comm_caps", "src/ptp/sfptpd_ptp_module.c:ptp_create_instances"]}
{"id": "C334", "title": "One mode, one rule for the UTC offset", "statement": "Every instance is in exactly one of the modes slave, master, master-only and monitor, and follows at most one rule about the validity of the UTC offset, namely that of the word given.", "quantifier": "all configurations", "why_tests_cant": "Repeated options in any order.", "anchors": ["src/ptp/sfptpd_ptp_config.c:parse_ptp_mode", "src/ptp/sfptpd_ptp_config.c:parse_utc_valid_handling"]}
{"id": "C335", "title": "Keywords", "statement": "An option with keywords accepts exactly the documented words, and each word sets what it says whatever was set before.", "quantifier": "all options with keywords, all texts and all earlier settings", "why_tests_cant": "Unboundedly many texts.", "anchors": ["src/ptp/sfptpd_ptp_config.c:parse_ptp_mode", "src/ptp/sfptpd_ptp_config.c:parse_timestamping", "src/ptp/sfptpd_ptp_config.c:parse_lacp_bypass"]}
{"id": "C336", "title": "Numbers", "statement": "An option with an integer accepts the numeral of a number exactly if the number is within the limits, which may depend on the profile, and then has that value.", "quantifier": "all options with integers, all numerals of 32 bits and all earlier settings", "why_tests_cant": "Unboundedly many combinations.", "anchors": ["src/ptp/sfptpd_ptp_config.c:parse_ptp_domain", "src/ptp/sfptpd_ptp_config.c:parse_announce_pkt_timeout", "src/ptp/sfptpd_ptp_config.c:parse_fir_filter_size"]}
{"id": "C337", "title": "An option changes its own setting only", "statement": "A line in the configuration changes the setting of its option and nothing else: in the global section for all instances, in the section of an instance for this instance alone.", "quantifier": "all options, parameters and configurations", "why_tests_cant": "All other settings would have to be compared in all states.", "anchors": ["src/ptp/sfptpd_ptp_config.c:ptp_config_options", "src/sfptpd_config.c:config_parse_option"]}
{"id": "C338", "title": "The older name of the list of management stations", "statement": "ptp_mgmt_acl_permit sets the list of permitted management stations.", "quantifier": "all lists and earlier settings", "why_tests_cant": "A wrong entry in a table shows only in the effects of the option.", "anchors": ["src/ptp/sfptpd_ptp_config.c:ptp_config_options", "src/ptp/sfptpd_ptp_config.c:parse_ptp_mgmt_acl_allow"]}
{"id": "C339", "title": "No configuration aborts the daemon", "statement": "Options in the global section hold for every instance, options meant for it are refused elsewhere, and no configuration makes the daemon fail an assertion.", "quantifier": "all configurations", "why_tests_cant": "Applying an option to all instances depends on all their settings.", "anchors": ["src/sfptpd_config.c:config_parse_option", "src/ptp/sfptpd_ptp_config.c:parse_mon_monitor_address"]}
{"id": "C340", "title": "Access control lists are kept whole", "statement": "A list of addresses is accepted exactly if it fits the buffer; the words of the text kept are then the addresses given, an earlier list is gone, and the list is in force.", "quantifier": "all lists of addresses", "why_tests_cant": "The end of the buffer matters.", "anchors": ["src/ptp/sfptpd_ptp_config.c:parse_ptp_acl_list", "src/ptp/sfptpd_ptp_config.c:parse_ptp_timing_acl_allow"]}
{"id": "C341", "title": "Monitoring stations", "statement": "Addresses of monitoring stations, with or without brackets and port, are added in the order given and accepted exactly if there are at most six in all.", "quantifier": "all lists of addresses", "why_tests_cant": "Unboundedly many texts matched with patterns.", "anchors": ["src/ptp/sfptpd_ptp_config.c:parse_mon_monitor_address"]}
{"id": "C342", "title": "Coefficients of filters are fractions", "statement": "The coefficients of the PID filter and the adaption of the outlier filter are numbers between zero and one.", "quantifier": "all texts and earlier settings", "why_tests_cant": "The special values of floating point numbers.", "anchors": ["src/ptp/sfptpd_ptp_config.c:parse_pid_filter_kp", "src/ptp/sfptpd_ptp_config.c:parse_pid_filter_ki", "src/ptp/sfptpd_ptp_config.c:parse_outlier_filter_adaption"]}
{"id": "C343", "title": "The interface named is used", "statement": "An instance uses the interface of the name given.", "quantifier": "all names", "why_tests_cant": "Names of any length.", "anchors": ["src/ptp/sfptpd_ptp_config.c:parse_interface"]}
{"id": "C344", "title": "Numbers are read whole", "statement": "A text accepted for an integer is the text of a number and nothing else, and a numeral has its value.", "quantifier": "all texts", "why_tests_cant": "Unboundedly many texts.", "anchors": ["src/ptp/sfptpd_ptp_config.c:parse_ptp_domain", "src/ptp/sfptpd_ptp_config.c:parse_bmc_priority1"]}
{"id": "C345", "title": "Registration for messages", "statement": "A thread that subscribes or publishes is registered, once for each call, until it unsubscribes or unpublishes as often. Adding succeeds exactly if memory is available, for the user and, for the first user of a message, for the group; removing succeeds exactly if the thread is registered and fails with ENOENT otherwise; sending is refused with ECONNREFUSED exactly if nobody is registered for the message.", "quantifier": "all messages, threads and interleavings of calls", "why_tests_cant": "Groups come and go with their users in any order.", "anchors": ["src/sfptpd_multicast.c:multicast_add_user", "src/sfptpd_multicast.c:multicast_remove_user", "src/sfptpd_multicast.c:sfptpd_multicast_send"]}
{"id": "C346", "title": "Nothing is left at the end", "statement": "The module is freed at the end exactly if every registered user has gone.", "quantifier": "all interleavings of calls", "why_tests_cant": "Depends on every path that adds and removes users.", "anchors": ["src/sfptpd_multicast.c:sfptpd_multicast_destroy", "src/sfptpd_multicast.c:multicast_remove_user"]}
{"id": "C347", "title": "Every subscriber is told", "statement": "Sending, undisturbed and with memory available, posts an event for each subscriber that asked for events and sends each other subscriber a message of its own, once for each subscription; a message that cannot be sent goes back to its pool without stopping the others; the first error is returned.", "quantifier": "all registers and all results of sending", "why_tests_cant": "Unboundedly many subscribers of both kinds.", "anchors": ["src/sfptpd_multicast.c:sfptpd_multicast_send"]}
{"id": "C348", "title": "Messages are not lost", "statement": "A thread that is not in the middle of sending has sent or freed exactly the messages it has allocated.", "quantifier": "all interleavings of calls and results of allocation and sending", "why_tests_cant": "Leaks show after unboundedly many failures.", "anchors": ["src/sfptpd_multicast.c:sfptpd_multicast_send"]}
{"id": "C349", "title": "A failed send tells nobody", "statement": "If messages cannot be allocated, sending fails before anybody has been told.", "quantifier": "all registers and results of allocation", "why_tests_cant": "Needs exhaustion of a pool at a certain place.", "anchors": ["src/sfptpd_multicast.c:sfptpd_multicast_send"]}
{"id": "C350", "title": "Groups are not freed while they are used", "statement": "No interleaving of the calls of threads leads to the use of a group that has been freed.", "quantifier": "all interleavings", "why_tests_cant": "Races are found by tests only by chance.", "anchors": ["src/sfptpd_multicast.c:sfptpd_multicast_send", "src/sfptpd_multicast.c:multicast_remove_user"]}
{"id": "C351", "title": "Only subscribers receive", "statement": "A message is sent to, and an event posted for, threads that are subscribed to it at that time.", "quantifier": "all interleavings", "why_tests_cant": "Races are found by tests only by chance.", "anchors": ["src/sfptpd_multicast.c:sfptpd_multicast_send", "src/sfptpd_multicast.c:sfptpd_multicast_unsubscribe"]}
{"id": "C352", "title": "Writers of events are destroyed", "statement": "The writers of events made for subscribers have been destroyed, each once, except those of the subscribers that are registered.", "quantifier": "all interleavings of calls and results of allocation", "why_tests_cant": "Leaks show after unboundedly many failures.", "anchors": ["src/sfptpd_multicast.c:sfptpd_multicast_subscribe_event", "src/sfptpd_multicast.c:multicast_user_finit"]}
{"id": "C353", "title": "Verbosity never lowers a trace level", "statement": "For trace levels in the documented range, a -v option of the command line leaves no trace level lower than it was.", "quantifier": "all levels and verbosities", "why_tests_cant": "Seven levels, each with its own condition; tests look at a few.", "anchors": ["src/sfptpd_general_config.c:sfptpd_config_general_set_verbose"]}
{"id": "C354", "title": "Verbosity of the command line in force", "statement": "When the daemon starts with n options -v, the trace levels are at least those of that verbosity whatever the configuration file says: with one, general 3, netlink 1, ntp 1 and clocks 2; with two, 6 for all but threading, which is at least 1; with three, 6 for threading too.", "quantifier": "all numbers of -v options and all trace_level lines", "why_tests_cant": "Depends on the order of two passes over the command line and the file.", "anchors": ["src/sfptpd_general_config.c:sfptpd_config_general_set_verbose", "src/sfptpd_config.c:sfptpd_config_parse_command_line_pass1", "src/sfptpd_config.c:sfptpd_config_parse_command_line_pass2"]}
{"id": "C355", "title": "The option trace_level", "statement": "Every trace_level line with at least one parameter is accepted or refused, and a module and a level set that level alone.", "quantifier": "all levels and parameters", "why_tests_cant": "The table of options admits any number of parameters.", "anchors": ["src/sfptpd_general_config.c:parse_trace_level"]}
{"id": "C356", "title": "The user written is the user run as", "statement": "If the option user is accepted, the daemon will run as the user with that name in the database or as the user whose number is written, with the group of the record or the group given.", "quantifier": "all databases and parameters", "why_tests_cant": "Depends on conversions of arbitrary numbers.", "anchors": ["src/sfptpd_general_config.c:parse_user"]}
{"id": "C357", "title": "Numbers of users without a record", "statement": "The number of a user is accepted whether or not the database has a record for it.", "quantifier": "all databases and numbers", "why_tests_cant": "Tests run with the database of one system.", "anchors": ["src/sfptpd_general_config.c:parse_user"]}
{"id": "C358", "title": "Failed lookups of users", "statement": "Whatever the databases answer, the option user is accepted or refused without use of a record that was not filled in.", "quantifier": "all answers of the databases", "why_tests_cant": "Failures of the databases are rare.", "anchors": ["src/sfptpd_general_config.c:parse_user"]}
{"id": "C359", "title": "Names of clocks and interfaces are kept", "statement": "An accepted list of clocks, of read-only clocks or of interfaces holds the names written.", "quantifier": "all lists of names", "why_tests_cant": "Unboundedly long names.", "anchors": ["src/sfptpd_general_config.c:parse_clock_list", "src/sfptpd_general_config.c:parse_clock_readonly", "src/sfptpd_general_config.c:parse_timestamping_interfaces"]}
{"id": "C360", "title": "The last list of interfaces is in force", "statement": "After two timestamping_interfaces options the second is in force: whether all interfaces are time stamped does not depend on the first.", "quantifier": "all pairs of lists", "why_tests_cant": "Needs two options in an unusual order.", "anchors": ["src/sfptpd_general_config.c:parse_timestamping_interfaces"]}
{"id": "C361", "title": "Unique bits of clock identities", "statement": "A text accepted for the unique bits, other than the words pid, hostid and rand, consists of hexadecimal digits and colons, and up to eight octets set the last octets to those written.", "quantifier": "all texts", "why_tests_cant": "Unboundedly many texts.", "anchors": ["src/sfptpd_general_config.c:parse_unique_clockid_bits"]}
{"id": "C362", "title": "The last unique bits are in force", "statement": "After two unique_clockid_bits options the second is in force alone.", "quantifier": "all pairs of texts", "why_tests_cant": "Needs two options of different lengths.", "anchors": ["src/sfptpd_general_config.c:parse_unique_clockid_bits"]}
{"id": "C363", "title": "The declaration of sync instances is answered", "statement": "A configuration with any sync_module lines is accepted or refused; no assertion fails.", "quantifier": "all lists of sync_module lines", "why_tests_cant": "Depends on names chosen by the user and a name chosen by the program.", "anchors": ["src/sfptpd_general_config.c:parse_sync_module", "src/sfptpd_general_config.c:validate_config", "src/sfptpd_config.c:sfptpd_config_section_add"]}
{"id": "C364", "title": "The instances of an accepted configuration", "statement": "An accepted configuration has exactly the instances its sync_module lines ask for, in their order, followed by an instance crny0 of chrony if no line names that module; the names of sections are different and shorter than 64 characters.", "quantifier": "all lists of sync_module lines", "why_tests_cant": "Unboundedly many lines and names.", "anchors": ["src/sfptpd_general_config.c:parse_sync_module", "src/sfptpd_general_config.c:validate_config", "src/sfptpd_config.c:sfptpd_config_find"]}
{"id": "C365", "title": "General settings are within their limits", "statement": "After an accepted general section the settings are within their documented limits: the synchronisation interval from -5 to 3, the step threshold from 0.1 to 10 seconds, the coefficients of the PID filter from 0 to 1, the intervals of reports and of netlink not negative, and the names and formats shorter than their buffers.", "quantifier": "all sequences of options with any parameters", "why_tests_cant": "Unboundedly many texts of numbers, among them inf and nan.", "anchors": ["src/sfptpd_general_config.c:parse_step_threshold", "src/sfptpd_general_config.c:parse_pid_filter_kp", "src/sfptpd_general_config.c:parse_pid_filter_ki", "src/sfptpd_general_config.c:parse_sync_interval", "src/sfptpd_general_config.c:parse_reporting_intervals"]}
{"id": "C366", "title": "General options with words", "statement": "Each general option with words (the switches, clock_control, epoch_guard and initial_clock_correction) accepts exactly its documented words as a single parameter, and a word sets what it means and nothing else.", "quantifier": "all settings and parameters", "why_tests_cant": "Tests give the correct words; wrong ones are unboundedly many.", "anchors": ["src/sfptpd_general_config.c:parse_lock", "src/sfptpd_general_config.c:parse_clock_control", "src/sfptpd_general_config.c:parse_epoch_guard", "src/sfptpd_general_config.c:parse_initial_clock_correction"]}
{"id": "C367", "title": "The last general option is in force", "statement": "If a general option with a single setting occurs twice, the second has the effect it would have without the first. The options ignore_critical and reporting_intervals, which accumulate, are excepted.", "quantifier": "all options, parameters and settings", "why_tests_cant": "Pairs of options are rarely tested.", "anchors": ["src/sfptpd_general_config.c:parse_selection_policy", "src/sfptpd_general_config.c:parse_clustering", "src/sfptpd_general_config.c:parse_message_log"]}
{"id": "C368", "title": "Critical errors to ignore", "statement": "The option ignore_critical is accepted exactly if it has parameters and all of them name critical errors. The errors ignored are then those ignored before and those named; nothing else changes.", "quantifier": "all lists of words and settings", "why_tests_cant": "Unboundedly long lists.", "anchors": ["src/sfptpd_general_config.c:parse_ignore_critical"]}
{"id": "C369", "title": "General options with single values are answered", "statement": "Every line with a general option of single values, with any number of parameters, is accepted or refused; no assertion fails.", "quantifier": "all options, parameters and settings", "why_tests_cant": "Depends on the numbers of parameters in the table agreeing with the assertions of all handlers.", "anchors": ["src/sfptpd_general_config.c:config_general_options", "src/sfptpd_general_config.c:parse_reporting_intervals"]}
{"id": "C370", "title": "General options with a number", "statement": "A general option with a number accepts exactly the numbers within its limits (those outside give ERANGE), sets its setting to the number written, and nothing else; the step threshold is written in seconds and kept in nanoseconds.", "quantifier": "all numbers and settings", "why_tests_cant": "Unboundedly many numbers; tests look at one setting.", "anchors": ["src/sfptpd_general_config.c:parse_sync_interval", "src/sfptpd_general_config.c:parse_step_threshold", "src/sfptpd_general_config.c:parse_pid_filter_kp", "src/sfptpd_general_config.c:parse_pid_filter_ki", "src/sfptpd_general_config.c:parse_netlink_rescan_interval", "src/sfptpd_general_config.c:parse_limit_freq_adj"]}
{"id": "C371", "title": "General options with names", "statement": "The lines for logs, the selection policy, clustering, the guard of clustering and the display of clocks set what they say, and nothing else, if the names are shorter than their limits.", "quantifier": "all names and settings", "why_tests_cant": "Unboundedly many names.", "anchors": ["src/sfptpd_general_config.c:parse_message_log", "src/sfptpd_general_config.c:parse_stats_log", "src/sfptpd_general_config.c:parse_selection_policy", "src/sfptpd_general_config.c:parse_clustering", "src/sfptpd_general_config.c:parse_clustering_guard_threshold", "src/sfptpd_general_config.c:parse_clock_display_fmts"]}
{"id": "C372", "title": "Intervals of reports", "statement": "With any number of pairs of a kind of report and an interval that is not negative, the option reporting_intervals sets each kind to the last interval given for it, leaves a kind not named as it was, and changes nothing else.", "quantifier": "all lists of pairs and settings", "why_tests_cant": "Unboundedly long lists.", "anchors": ["src/sfptpd_general_config.c:parse_reporting_intervals"]}
{"id": "C373", "title": "One daemon at a time", "statement": "With locking enabled, at any time at most one process runs as the daemon with the lock.", "quantifier": "all numbers of processes and all interleavings of their system calls", "why_tests_cant": "Depends on the interleaving of starts and ends of several processes.", "anchors": ["src/sfptpd_main.c:runtime_checks", "src/sfptpd_main.c:lock_create", "src/sfptpd_main.c:lock_delete", "src/sfptpd_main.c:daemonize"]}
{"id": "C374", "title": "A lock file left behind is harmless", "statement": "If no process has locked a file, whatever files were left behind by processes that were killed, a process that starts and finds no other program running gets the lock and runs.", "quantifier": "all histories of processes", "why_tests_cant": "Needs processes that are killed at any point.", "anchors": ["src/sfptpd_main.c:lock_create"]}
{"id": "C375", "title": "A second daemon is refused", "statement": "While a process runs with the file at the path of the lock, another process that starts ends, at the latest when it tries to lock the file, and leaves the file, its lock and the other processes alone.", "quantifier": "all histories of processes", "why_tests_cant": "Depends on states reached by several processes.", "anchors": ["src/sfptpd_main.c:lock_create"]}
{"id": "C376", "title": "The lock file is removed once", "statement": "A process removes the lock file at most as often as it took the lock, so that it does not remove the file of another process.", "quantifier": "all histories of processes", "why_tests_cant": "Needs a failure of daemon().", "anchors": ["src/sfptpd_main.c:lock_delete", "src/sfptpd_main.c:daemonize"]}
{"id": "C377", "title": "Capabilities of the daemon", "statement": "After a successful start the effective and the permitted capabilities are SYS_TIME, NET_BIND_SERVICE, NET_ADMIN and NET_RAW, and DAC_OVERRIDE exactly if root started the daemon and it runs as root.", "quantifier": "all credentials, settings of the option user and failures of calls", "why_tests_cant": "Needs root, and all combinations of credentials and failures.", "anchors": ["src/sfptpd_main.c:drop_user", "src/sfptpd_main.c:claim_drop_privilege"]}
{"id": "C378", "title": "Identity of the daemon", "statement": "If the option user is given, the daemon runs with the user, the group and the groups configured.", "quantifier": "all credentials, settings and failures of calls", "why_tests_cant": "Needs root, and all combinations of credentials and failures.", "anchors": ["src/sfptpd_main.c:drop_user"]}
{"id": "C379", "title": "Root can start the daemon as any user", "statement": "Started by root with the capabilities it uses, the daemon starts with any user and group, if no call fails for reasons other than missing privilege.", "quantifier": "all credentials of root and all settings", "why_tests_cant": "Depends on the order in which privileges are given up.", "anchors": ["src/sfptpd_main.c:drop_user", "src/sfptpd_main.c:claim_drop_privilege"]}
{"id": "C380", "title": "No way back to root", "statement": "Once the daemon has started as a user other than root, no sequence of calls changes its user, group or groups, or gives it a capability other than the four it needs.", "quantifier": "all credentials, settings and sequences of calls", "why_tests_cant": "Unboundedly many sequences of calls.", "anchors": ["src/sfptpd_main.c:drop_user", "src/sfptpd_main.c:claim_drop_privilege"]}
{"id": "C381", "title": "What the supervisor is told", "statement": "The message to the supervisor is READY=1 if the daemon has started, and otherwise ERRNO= and the error.", "quantifier": "all values of the environment and all errors", "why_tests_cant": "All errors.", "anchors": ["src/sfptpd_main.c:notify_init"]}
{"id": "C382", "title": "Where the supervisor is told", "statement": "The message goes to the socket named by NOTIFY_SOCKET, a path or @ and an abstract name, if the name fits into an address.", "quantifier": "all names", "why_tests_cant": "All names.", "anchors": ["src/sfptpd_main.c:notify_init"]}
{"id": "C383", "title": "What ends the daemon", "statement": "Once started, the daemon ends only after SIGINT, SIGTERM or the command exit, the end of the engine or of the helper, or a failure to wait for events; and its code is one given by such a reason.", "quantifier": "all sequences of results of epoll_wait with any signals, messages, commands and ends of the helper, in any order", "why_tests_cant": "Unboundedly many sequences and orders of events.", "anchors": ["src/sfptpd_main.c:main_on_signal", "src/sfptpd_main.c:main_on_message", "src/sfptpd_main.c:main_on_user_fds", "src/sfptpd_main.c:on_control_socket_fd", "src/sfptpd_thread.c:thread_entry", "src/sfptpd_thread.c:sfptpd_thread_exit"]}
{"id": "C384", "title": "The daemon ends at once", "statement": "Given a reason to end, the daemon ends in the same turn of its main loop or in the next that is not interrupted, whatever else happens.", "quantifier": "all sequences of results of epoll_wait", "why_tests_cant": "Unboundedly many sequences and orders of events.", "anchors": ["src/sfptpd_main.c:main_on_signal", "src/sfptpd_main.c:main_on_user_fds", "src/sfptpd_thread.c:thread_entry", "src/sfptpd_thread.c:sfptpd_thread_exit"]}
{"id": "C385", "title": "Status after a request to exit", "statement": "If the first reason to end is a signal to exit, the exit status of the daemon is 0.", "quantifier": "all sequences of results of epoll_wait", "why_tests_cant": "Depends on what happens between the request and the end.", "anchors": ["src/sfptpd_main.c:main_on_signal", "src/sfptpd_main.c:main_on_user_fds", "src/sfptpd_main.c:main", "src/sfptpd_thread.c:sfptpd_thread_exit"]}
{"id": "C386", "title": "Status after a failure", "statement": "If the daemon ends because of failures only (of the engine, the helper or the wait for events, with errors from 1 to 255 other than ESHUTDOWN), its exit status is the error of one of them, and not 0.", "quantifier": "all sequences of results of epoll_wait", "why_tests_cant": "Unboundedly many sequences of failures.", "anchors": ["src/sfptpd_main.c:main_on_message", "src/sfptpd_main.c:main_on_user_fds", "src/sfptpd_main.c:main", "src/sfptpd_thread.c:thread_entry"]}
{"id": "C387", "title": "Signals and commands are passed on", "statement": "While the daemon runs, every SIGHUP, SIGUSR1, test signal and command received is passed on once, and in order; other real-time signals are ignored.", "quantifier": "all sequences of results of epoll_wait", "why_tests_cant": "Unboundedly many sequences and orders of events.", "anchors": ["src/sfptpd_main.c:main_on_signal", "src/sfptpd_main.c:on_control_socket_fd", "src/sfptpd_main.c:main_on_user_fds", "src/sfptpd_thread.c:thread_on_signal"]}
{"id": "C388", "title": "Lines of statistics in JSON are written whole", "statement": "Every line of statistics in JSON that is not longer than the buffer is written to the file in one piece.", "quantifier": "all sequences of lines of any lengths and of flushes", "why_tests_cant": "Unboundedly many sequences of lengths.", "anchors": ["src/sfptpd_logging.c:sfptpd_log_rt_stats_written"]}
{"id": "C389", "title": "State files are complete", "statement": "Whenever it is read, a state file is missing, as it was before, or a whole document that was written.", "quantifier": "all sequences of documents, of partial and failed writes, and all times of reading", "why_tests_cant": "Needs readers between any two writes, and failures.", "anchors": ["src/sfptpd_logging.c:create_log", "src/sfptpd_logging.c:sfptpd_log_file_close"]}
{"id": "C390", "title": "The log closes its own descriptors", "statement": "In every life of the log, with any rotations, it closes only descriptors that it has opened, each once, and at the end all of them.", "quantifier": "all settings of messages and statistics, all sequences of rotations, all results of open", "why_tests_cant": "Needs failures of open and reuse of numbers.", "anchors": ["src/sfptpd_logging.c:sfptpd_log_open", "src/sfptpd_logging.c:sfptpd_log_rotate", "src/sfptpd_logging.c:sfptpd_log_close"]}
{"id": "C391", "title": "After a rotation the new files are used", "statement": "After a rotation that returns 0, messages and statistics go to the files just opened.", "quantifier": "all states of the descriptors, settings and results of open", "why_tests_cant": "All settings and states.", "anchors": ["src/sfptpd_logging.c:sfptpd_log_rotate"]}
{"id": "C392", "title": "The state of a GPS instance follows the receiver", "statement": "After any events a GPS instance is a slave exactly if the receiver had a fix by its last report of status; otherwise it is selecting if satellites were in view by the last report, or listening, and its offset is 0.", "quantifier": "all sequences of reports, failed reads, steps and control messages", "why_tests_cant": "Unboundedly many sequences; not every new state is stored.", "anchors": ["src/gps/sfptpd_gps_module.c:gps_state_machine", "src/gps/sfptpd_gps_module.c:gps_parse_state", "src/gps/sfptpd_gps_module.c:update_state"]}
{"id": "C393", "title": "A failure of gpsd is noticed", "statement": "After a read from gpsd that fails for good, the GPS instance is disabled or faulty.", "quantifier": "all histories and all values of errno", "why_tests_cant": "Needs failures at any time.", "anchors": ["src/gps/sfptpd_gps_module.c:gps_do_io", "src/gps/sfptpd_gps_module.c:gps_parse_state"]}
{"id": "C394", "title": "The engine knows the state of a GPS instance", "statement": "At every time the engine was last told the state, alarms, clock class, time source and steps that a query of the instance answers.", "quantifier": "all sequences of events", "why_tests_cant": "The engine is told of some changes only; needs all histories.", "anchors": ["src/gps/sfptpd_gps_module.c:gps_handle_state_change", "src/gps/sfptpd_gps_module.c:update_state", "src/gps/sfptpd_gps_module.c:gps_on_get_status"]}
{"id": "C395", "title": "Synchronized to GPS only with a small offset", "statement": "A GPS instance is synchronized only while it is a slave and its offset is within the convergence threshold.", "quantifier": "all thresholds and sequences of events", "why_tests_cant": "Needs long histories.", "anchors": ["src/gps/sfptpd_gps_module.c:gps_convergence_update"]}
{"id": "C396", "title": "No GPS offset from before a step of the clock", "statement": "After the clock has been stepped, a GPS instance is no slave until the next report.", "quantifier": "all histories", "why_tests_cant": "Needs a step at any time.", "anchors": ["src/gps/sfptpd_gps_module.c:gps_on_step_clock"]}
{"id": "C397", "title": "A GPS slave has a measured offset", "statement": "The offset of a GPS instance that is a slave has been measured since the receiver has a fix, and is the last one measured.", "quantifier": "all sequences of events", "why_tests_cant": "Reports come in any order and number.", "anchors": ["src/gps/sfptpd_gps_module.c:gps_state_machine", "src/gps/sfptpd_gps_module.c:gps_parse_state"]}
{"id": "C398", "title": "The accuracy of a GPS slave is the one last reported", "statement": "A GPS instance that is a slave answers a query with the error of time last reported by the receiver.", "quantifier": "all sequences of events", "why_tests_cant": "A report is stored only together with certain changes; needs all histories.", "anchors": ["src/gps/sfptpd_gps_module.c:gps_state_machine", "src/gps/sfptpd_gps_module.c:gps_on_get_status"]}
